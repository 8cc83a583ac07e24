import Verif.CLC.Message
/-!
# Unit tests of pkg/clc run through the model

The vectors of /repo/pkg/clc/*_test.go. These are tests of the model, not proofs.
-/

namespace SMC.Tests
open SMC CLC

/-- `NewMessage` and `Parse` of a message: expected length and texts -/
def okMsg (msg : Bytes) (length : UInt16) (str res : Bytes) : Bool :=
  match newMessage ⟨msg, []⟩ with
  | .ret [] (some m, l) =>
    match m.parse ⟨msg, []⟩ with
    | .ret [] m => decide (l = length ∧ m.string = str ∧ m.reserved = res)
    | _ => false
  | _ => false

/-! /repo/pkg/clc/tcp_option_test.go -/

#guard checkSMCOption [] = false
#guard checkSMCOption [⟨254, 6, SMCREyecatcher⟩] = true

/-! /repo/pkg/clc/clc_proposal_v2_test.go, TestEIDString -/

#guard eidStr (zeros 32) = []
#guard eidStr (List.replicate 8 0x31 ++ zeros 24) = go! "11111111"
#guard eidStr (List.replicate 32 0x31) = go! "11111111111111111111111111111111"
#guard eidStr (List.replicate 8 0x31 ++ List.replicate 24 0x20) = go! "11111111"

/-! /repo/pkg/clc/clc_accept_smcd_test.go -/

-- TestParseSMCDAccept
#guard okMsg (hex! "e2d4c3c4020030110123456789abcdef0123456789abcdefff100000ffffffff000000000000000000000000e2d4c3c4") 48
  (go! "Accept: Eyecatcher: SMC-D, Type: 2 (Accept), Length: 48, Version: 1, First Contact: 0, Path: SMC-D, SMC-D GID: 81985529216486895, SMC-D Token: 81985529216486895, DMBE Index: 255, DMBE Size: 1 (32768), Link ID: 4294967295, Trailer: SMC-D")
  (go! "Accept: Eyecatcher: SMC-D, Type: 2 (Accept), Length: 48, Version: 1, First Contact: 0, Reserved: 0x0, Path: SMC-D, SMC-D GID: 81985529216486895, SMC-D Token: 81985529216486895, DMBE Index: 255, DMBE Size: 1 (32768), Reserved: 0x0, Reserved: 0x0000, Link ID: 4294967295, Reserved: 0x000000000000000000000000, Trailer: SMC-D")

/-! /repo/pkg/clc/clc_accept_smcd_v2_test.go -/

-- TestParseSMCDv2Accept
#guard okMsg (hex! "e2d4c3c402004e210123456789abcdef0123456789abcdefff100000ffffffff0123546869734973534d4376324549443031000000000000000000000000000000000000000000000000e2d4c3c4") 78
  (go! "Accept: Eyecatcher: SMC-D, Type: 2 (Accept), Length: 78, Version: 2, First Contact: 0, Path: SMC-D, SMC-D GID: 81985529216486895, SMC-D Token: 81985529216486895, DMBE Index: 255, DMBE Size: 1 (32768), Link ID: 4294967295, ISMv2 VCHID: 291, EID: ThisIsSMCv2EID01, Trailer: SMC-D")
  (go! "Accept: Eyecatcher: SMC-D, Type: 2 (Accept), Length: 78, Version: 2, First Contact: 0, Reserved: 0x0, Path: SMC-D, SMC-D GID: 81985529216486895, SMC-D Token: 81985529216486895, DMBE Index: 255, DMBE Size: 1 (32768), Reserved: 0x0, Reserved: 0x0000, Link ID: 4294967295, ISMv2 VCHID: 291, EID: ThisIsSMCv2EID01, Reserved: 0x0000000000000000, Trailer: SMC-D")

-- TestParseSMCDv2FCEAccept
#guard okMsg (hex! "e2d4c3c4020072290123456789abcdef0123456789abcdefff100000ffffffff0123546869734973534d437632454944303100000000000000000000000000000000000000000000000000200000546869734973486f73746e616d65303100000000000000000000000000000000e2d4c3c4") 114
  (go! "Accept: Eyecatcher: SMC-D, Type: 2 (Accept), Length: 114, Version: 2, First Contact: 1, Path: SMC-D, SMC-D GID: 81985529216486895, SMC-D Token: 81985529216486895, DMBE Index: 255, DMBE Size: 1 (32768), Link ID: 4294967295, ISMv2 VCHID: 291, EID: ThisIsSMCv2EID01, OS Type: 2 (Linux), Release: 0, Hostname: ThisIsHostname01, Trailer: SMC-D")
  (go! "Accept: Eyecatcher: SMC-D, Type: 2 (Accept), Length: 114, Version: 2, First Contact: 1, Reserved: 0x0, Path: SMC-D, SMC-D GID: 81985529216486895, SMC-D Token: 81985529216486895, DMBE Index: 255, DMBE Size: 1 (32768), Reserved: 0x0, Reserved: 0x0000, Link ID: 4294967295, ISMv2 VCHID: 291, EID: ThisIsSMCv2EID01, Reserved: 0x0000000000000000, Reserved: 0x0, OS Type: 2 (Linux), Release: 0, Reserved: 0x0000, Hostname: ThisIsHostname01, Trailer: SMC-D")

/-! /repo/pkg/clc/clc_accept_smcr_test.go -/

-- TestParseSMCRAccept
#guard okMsg (hex! "e2d4c3d902004418b1a098039babcdeffe800000000000009a039bfffeabcdef98039babcdef0000e40000157d0100000005230000000000f0a600000072f5fee2d4c3d9") 68
  (go! "Accept: Eyecatcher: SMC-R, Type: 2 (Accept), Length: 68, Version: 1, First Contact: 1, Path: SMC-R, Peer ID: 45472@98:03:9b:ab:cd:ef, SMC-R GID: fe80::9a03:9bff:feab:cdef, RoCE MAC: 98:03:9b:ab:cd:ef, QP Number: 228, RMB RKey: 5501, RMBE Index: 1, RMBE Alert Token: 5, RMBE Size: 2 (65536), QP MTU: 3 (1024), RMB Virtual Address: 0xf0a60000, Packet Sequence Number: 7534078, Trailer: SMC-R")
  (go! "Accept: Eyecatcher: SMC-R, Type: 2 (Accept), Length: 68, Version: 1, First Contact: 1, Reserved: 0x0, Path: SMC-R, Peer ID: 45472@98:03:9b:ab:cd:ef, SMC-R GID: fe80::9a03:9bff:feab:cdef, RoCE MAC: 98:03:9b:ab:cd:ef, QP Number: 228, RMB RKey: 5501, RMBE Index: 1, RMBE Alert Token: 5, RMBE Size: 2 (65536), QP MTU: 3 (1024), Reserved: 0x0, RMB Virtual Address: 0xf0a60000, Reserved: 0x0, Packet Sequence Number: 7534078, Trailer: SMC-R")

/-! /repo/pkg/clc/clc_confirm_smcd_test.go -/

-- TestParseSMCDConfirm
#guard okMsg (hex! "e2d4c3c4030030110123456789abcdef0123456789abcdefff100000ffffffff000000000000000000000000e2d4c3c4") 48
  (go! "Confirm: Eyecatcher: SMC-D, Type: 3 (Confirm), Length: 48, Version: 1, Flag: 0, Path: SMC-D, SMC-D GID: 81985529216486895, SMC-D Token: 81985529216486895, DMBE Index: 255, DMBE Size: 1 (32768), Link ID: 4294967295, Trailer: SMC-D")
  (go! "Confirm: Eyecatcher: SMC-D, Type: 3 (Confirm), Length: 48, Version: 1, Flag: 0, Reserved: 0x0, Path: SMC-D, SMC-D GID: 81985529216486895, SMC-D Token: 81985529216486895, DMBE Index: 255, DMBE Size: 1 (32768), Reserved: 0x0, Reserved: 0x0000, Link ID: 4294967295, Reserved: 0x000000000000000000000000, Trailer: SMC-D")

/-! /repo/pkg/clc/clc_confirm_smcd_v2_test.go -/

-- TestParseSMCDv2Confirm
#guard okMsg (hex! "e2d4c3c403004e210123456789abcdef0123456789abcdefff100000ffffffff0123546869734973534d4376324549443031000000000000000000000000000000000000000000000000e2d4c3c4") 78
  (go! "Confirm: Eyecatcher: SMC-D, Type: 3 (Confirm), Length: 78, Version: 2, First Contact: 0, Path: SMC-D, SMC-D GID: 81985529216486895, SMC-D Token: 81985529216486895, DMBE Index: 255, DMBE Size: 1 (32768), Link ID: 4294967295, ISMv2 VCHID: 291, EID: ThisIsSMCv2EID01, Trailer: SMC-D")
  (go! "Confirm: Eyecatcher: SMC-D, Type: 3 (Confirm), Length: 78, Version: 2, First Contact: 0, Reserved: 0x0, Path: SMC-D, SMC-D GID: 81985529216486895, SMC-D Token: 81985529216486895, DMBE Index: 255, DMBE Size: 1 (32768), Reserved: 0x0, Reserved: 0x0000, Link ID: 4294967295, ISMv2 VCHID: 291, EID: ThisIsSMCv2EID01, Reserved: 0x0000000000000000, Trailer: SMC-D")

-- TestParseSMCDv2FCEConfirm
#guard okMsg (hex! "e2d4c3c4030072290123456789abcdef0123456789abcdefff100000ffffffff0123546869734973534d437632454944303100000000000000000000000000000000000000000000000000200000546869734973486f73746e616d65303100000000000000000000000000000000e2d4c3c4") 114
  (go! "Confirm: Eyecatcher: SMC-D, Type: 3 (Confirm), Length: 114, Version: 2, First Contact: 1, Path: SMC-D, SMC-D GID: 81985529216486895, SMC-D Token: 81985529216486895, DMBE Index: 255, DMBE Size: 1 (32768), Link ID: 4294967295, ISMv2 VCHID: 291, EID: ThisIsSMCv2EID01, OS Type: 2 (Linux), Release: 0, Hostname: ThisIsHostname01, Trailer: SMC-D")
  (go! "Confirm: Eyecatcher: SMC-D, Type: 3 (Confirm), Length: 114, Version: 2, First Contact: 1, Reserved: 0x0, Path: SMC-D, SMC-D GID: 81985529216486895, SMC-D Token: 81985529216486895, DMBE Index: 255, DMBE Size: 1 (32768), Reserved: 0x0, Reserved: 0x0000, Link ID: 4294967295, ISMv2 VCHID: 291, EID: ThisIsSMCv2EID01, Reserved: 0x0000000000000000, Reserved: 0x0, OS Type: 2 (Linux), Release: 0, Reserved: 0x0000, Hostname: ThisIsHostname01, Trailer: SMC-D")

/-! /repo/pkg/clc/clc_confirm_smcr_test.go -/

-- TestParseSMCRConfirm
#guard okMsg (hex! "e2d4c3d903004410b1a098039babcdeffe800000000000009a039bfffeabcdef98039babcdef0000e50000187f0100000006230000000000f0a40000000d89a4e2d4c3d9") 68
  (go! "Confirm: Eyecatcher: SMC-R, Type: 3 (Confirm), Length: 68, Version: 1, Flag: 0, Path: SMC-R, Peer ID: 45472@98:03:9b:ab:cd:ef, SMC-R GID: fe80::9a03:9bff:feab:cdef, RoCE MAC: 98:03:9b:ab:cd:ef, QP Number: 229, RMB RKey: 6271, RMBE Index: 1, RMBE Alert Token: 6, RMBE Size: 2 (65536), QP MTU: 3 (1024), RMB Virtual Address: 0xf0a40000, Packet Sequence Number: 887204, Trailer: SMC-R")
  (go! "Confirm: Eyecatcher: SMC-R, Type: 3 (Confirm), Length: 68, Version: 1, Flag: 0, Reserved: 0x0, Path: SMC-R, Peer ID: 45472@98:03:9b:ab:cd:ef, SMC-R GID: fe80::9a03:9bff:feab:cdef, RoCE MAC: 98:03:9b:ab:cd:ef, QP Number: 229, RMB RKey: 6271, RMBE Index: 1, RMBE Alert Token: 6, RMBE Size: 2 (65536), QP MTU: 3 (1024), Reserved: 0x0, RMB Virtual Address: 0xf0a40000, Reserved: 0x0, Packet Sequence Number: 887204, Trailer: SMC-R")

/-! /repo/pkg/clc/clc_decline_test.go -/

-- TestParseCLCDecline
#guard okMsg (hex! "e2d4c3d904001c1025252525252525000303000000000000e2d4c3d9") 28
  (go! "Decline: Eyecatcher: SMC-R, Type: 4 (Decline), Length: 28, Version: 1, Out of Sync: 0, Path: SMC-R, Peer ID: 9509@25:25:25:25:25:00, Peer Diagnosis: 0x3030000 (no SMC device found (R or D)), Trailer: SMC-R")
  (go! "Decline: Eyecatcher: SMC-R, Type: 4 (Decline), Length: 28, Version: 1, Out of Sync: 0, Reserved: 0x0, Path: SMC-R, Peer ID: 9509@25:25:25:25:25:00, Peer Diagnosis: 0x3030000 (no SMC device found (R or D)), Reserved: 0x00000000, Trailer: SMC-R")

/-! /repo/pkg/clc/clc_decline_v2_test.go -/

-- TestParseCLCDeclineV2
#guard okMsg (hex! "e2d4c3d904001c2025252525252525000303000020000000e2d4c3d9") 28
  (go! "Decline: Eyecatcher: SMC-R, Type: 4 (Decline), Length: 28, Version: 2, Out of Sync: 0, Path: SMC-R, Peer ID: 9509@25:25:25:25:25:00, Peer Diagnosis: 0x3030000 (no SMC device found (R or D)), OS Type: 2 (Linux), Trailer: SMC-R")
  (go! "Decline: Eyecatcher: SMC-R, Type: 4 (Decline), Length: 28, Version: 2, Out of Sync: 0, Reserved: 0x0, Path: SMC-R, Peer ID: 9509@25:25:25:25:25:00, Peer Diagnosis: 0x3030000 (no SMC device found (R or D)), OS Type: 2 (Linux), Reserved: 0x00000000, Trailer: SMC-R")

/-! /repo/pkg/clc/clc_proposal_test.go -/

-- TestParseCLCProposalSMCRIPv4
#guard okMsg (hex! "e2d4c3d901003410b1a098039babcdeffe800000000000009a039bfffeabcdef98039babcdef00007f00000008000000e2d4c3d9") 52
  (go! "Proposal: Eyecatcher: SMC-R, Type: 1 (Proposal), Length: 52, Version: 1, Flag: 0, Path: SMC-R, Peer ID: 45472@98:03:9b:ab:cd:ef, SMC-R GID: fe80::9a03:9bff:feab:cdef, RoCE MAC: 98:03:9b:ab:cd:ef, IP Area Offset: 0, IPv4 Prefix: 127.0.0.0/8, IPv6 Prefix Count: 0, Trailer: SMC-R")
  (go! "Proposal: Eyecatcher: SMC-R, Type: 1 (Proposal), Length: 52, Version: 1, Flag: 0, Reserved: 0x0, Path: SMC-R, Peer ID: 45472@98:03:9b:ab:cd:ef, SMC-R GID: fe80::9a03:9bff:feab:cdef, RoCE MAC: 98:03:9b:ab:cd:ef, IP Area Offset: 0, IPv4 Prefix: 127.0.0.0/8, Reserved: 0x0000, IPv6 Prefix Count: 0, Trailer: SMC-R")

-- TestParseCLCProposalSMCDIPv4
#guard okMsg (hex! "e2d4c3c401005c11b1a098039babcdef0000000000000000000000000000000000000000000000280123456789abcdef00000000000000000000000000000000000000000000000000000000000000007f00000008000000e2d4c3c4") 92
  (go! "Proposal: Eyecatcher: SMC-D, Type: 1 (Proposal), Length: 92, Version: 1, Flag: 0, Path: SMC-D, Peer ID: 45472@98:03:9b:ab:cd:ef, SMC-R GID: ::, RoCE MAC: 00:00:00:00:00:00, IP Area Offset: 40, SMC-D GID: 81985529216486895, IPv4 Prefix: 127.0.0.0/8, IPv6 Prefix Count: 0, Trailer: SMC-D")
  (go! "Proposal: Eyecatcher: SMC-D, Type: 1 (Proposal), Length: 92, Version: 1, Flag: 0, Reserved: 0x0, Path: SMC-D, Peer ID: 45472@98:03:9b:ab:cd:ef, SMC-R GID: ::, RoCE MAC: 00:00:00:00:00:00, IP Area Offset: 40, SMC-D GID: 81985529216486895, Reserved: 0x0000000000000000000000000000000000000000000000000000000000000000, IPv4 Prefix: 127.0.0.0/8, Reserved: 0x0000, IPv6 Prefix Count: 0, Trailer: SMC-D")

-- TestParseCLCProposalSMCBIPv4
#guard okMsg (hex! "e2d4c3d901005c13b1a098039babcdeffe800000000000009a039bfffeabcdef98039babcdef00280123456789abcdef00000000000000000000000000000000000000000000000000000000000000007f00000008000000e2d4c3d9") 92
  (go! "Proposal: Eyecatcher: SMC-R, Type: 1 (Proposal), Length: 92, Version: 1, Flag: 0, Path: SMC-R + SMC-D, Peer ID: 45472@98:03:9b:ab:cd:ef, SMC-R GID: fe80::9a03:9bff:feab:cdef, RoCE MAC: 98:03:9b:ab:cd:ef, IP Area Offset: 40, SMC-D GID: 81985529216486895, IPv4 Prefix: 127.0.0.0/8, IPv6 Prefix Count: 0, Trailer: SMC-R")
  (go! "Proposal: Eyecatcher: SMC-R, Type: 1 (Proposal), Length: 92, Version: 1, Flag: 0, Reserved: 0x0, Path: SMC-R + SMC-D, Peer ID: 45472@98:03:9b:ab:cd:ef, SMC-R GID: fe80::9a03:9bff:feab:cdef, RoCE MAC: 98:03:9b:ab:cd:ef, IP Area Offset: 40, SMC-D GID: 81985529216486895, Reserved: 0x0000000000000000000000000000000000000000000000000000000000000000, IPv4 Prefix: 127.0.0.0/8, Reserved: 0x0000, IPv6 Prefix Count: 0, Trailer: SMC-R")

-- TestParseCLCProposalSMCRIPv6
#guard okMsg (hex! "e2d4c3d901004510394498039babcdeffe800000000000009a039bfffeabcdef98039babcdef000000000000000000010000000000000000000000000000000180e2d4c3d9") 69
  (go! "Proposal: Eyecatcher: SMC-R, Type: 1 (Proposal), Length: 69, Version: 1, Flag: 0, Path: SMC-R, Peer ID: 14660@98:03:9b:ab:cd:ef, SMC-R GID: fe80::9a03:9bff:feab:cdef, RoCE MAC: 98:03:9b:ab:cd:ef, IP Area Offset: 0, IPv4 Prefix: 0.0.0.0/0, IPv6 Prefix Count: 1, IPv6 Prefix: ::1/128, Trailer: SMC-R")
  (go! "Proposal: Eyecatcher: SMC-R, Type: 1 (Proposal), Length: 69, Version: 1, Flag: 0, Reserved: 0x0, Path: SMC-R, Peer ID: 14660@98:03:9b:ab:cd:ef, SMC-R GID: fe80::9a03:9bff:feab:cdef, RoCE MAC: 98:03:9b:ab:cd:ef, IP Area Offset: 0, IPv4 Prefix: 0.0.0.0/0, Reserved: 0x0000, IPv6 Prefix Count: 1, IPv6 Prefix: ::1/128, Trailer: SMC-R")

-- TestParseCLCProposalSMCBIPv6
#guard okMsg (hex! "e2d4c3d901006d13394498039babcdeffe800000000000009a039bfffeabcdef98039babcdef00280123456789abcdef000000000000000000000000000000000000000000000000000000000000000000000000000000010000000000000000000000000000000180e2d4c3d9") 109
  (go! "Proposal: Eyecatcher: SMC-R, Type: 1 (Proposal), Length: 109, Version: 1, Flag: 0, Path: SMC-R + SMC-D, Peer ID: 14660@98:03:9b:ab:cd:ef, SMC-R GID: fe80::9a03:9bff:feab:cdef, RoCE MAC: 98:03:9b:ab:cd:ef, IP Area Offset: 40, SMC-D GID: 81985529216486895, IPv4 Prefix: 0.0.0.0/0, IPv6 Prefix Count: 1, IPv6 Prefix: ::1/128, Trailer: SMC-R")
  (go! "Proposal: Eyecatcher: SMC-R, Type: 1 (Proposal), Length: 109, Version: 1, Flag: 0, Reserved: 0x0, Path: SMC-R + SMC-D, Peer ID: 14660@98:03:9b:ab:cd:ef, SMC-R GID: fe80::9a03:9bff:feab:cdef, RoCE MAC: 98:03:9b:ab:cd:ef, IP Area Offset: 40, SMC-D GID: 81985529216486895, Reserved: 0x0000000000000000000000000000000000000000000000000000000000000000, IPv4 Prefix: 0.0.0.0/0, Reserved: 0x0000, IPv6 Prefix Count: 1, IPv6 Prefix: ::1/128, Trailer: SMC-R")

/-! /repo/pkg/clc/clc_proposal_v2_test.go -/

-- TestParseCLCProposalV2SMCB
#guard okMsg (hex! "e2d4c3d90100d62e394498039babcdeffe800000000000009a039bfffeabcdef98039babcdef00280123456789abcdef123400000000000000000000000000000000000000000000000000000000000001010001000000400000000000000000000000000000000000000000000000000000000000000000546869734973534d437632454944303100000000000000000000000000000000546869734973534d43763245494430320000000000000000000000000000000000000000000000000000000000000000abcdef01234567890123e2d4c3d9") 214
  (go! "Proposal: Eyecatcher: SMC-R, Type: 1 (Proposal), Length: 214, Version: 2, Pathv2: SMC-R + SMC-D, Path: No SMC-R/SMC-D, Peer ID: 14660@98:03:9b:ab:cd:ef, SMC-R GID: fe80::9a03:9bff:feab:cdef, RoCE MAC: 98:03:9b:ab:cd:ef, IP Area Offset: 40, SMC-D GID: 81985529216486895, ISMv2 VCHID: 4660, SMCv2 Extension Offset: 0, EID Number: 1, GID Number: 1, Release: 0, SEID Indicator: 1, SMC-Dv2 Extension Offset: 64, EID Area: [EID 0: ThisIsSMCv2EID01], SEID: ThisIsSMCv2EID02, GID Area: [GID 0: 12379813738877118345, VCHID 0: 291], Trailer: SMC-R")
  (go! "Proposal: Eyecatcher: SMC-R, Type: 1 (Proposal), Length: 214, Version: 2, Pathv2: SMC-R + SMC-D, Path: No SMC-R/SMC-D, Peer ID: 14660@98:03:9b:ab:cd:ef, SMC-R GID: fe80::9a03:9bff:feab:cdef, RoCE MAC: 98:03:9b:ab:cd:ef, IP Area Offset: 40, SMC-D GID: 81985529216486895, ISMv2 VCHID: 4660, SMCv2 Extension Offset: 0, Reserved: 0x00000000000000000000000000000000000000000000000000000000, EID Number: 1, GID Number: 1, Reserved: 0x0, Release: 0, Reserved: 0x0, SEID Indicator: 1, Reserved: 0x0000, SMC-Dv2 Extension Offset: 64, Reserved: 0x0000000000000000000000000000000000000000000000000000000000000000, EID Area: [EID 0: ThisIsSMCv2EID01], SEID: ThisIsSMCv2EID02, Reserved: 0x00000000000000000000000000000000, GID Area: [GID 0: 12379813738877118345, VCHID 0: 291], Trailer: SMC-R")

-- TestParseCLCProposalV2SMCBIPv4
#guard okMsg (hex! "e2d4c3d90100de2f394498039babcdeffe800000000000009a039bfffeabcdef98039babcdef00280123456789abcdef12340019000000000000000000000000000000000000000000000000000000007f0000000800000001010001000000400000000000000000000000000000000000000000000000000000000000000000546869734973534d437632454944303100000000000000000000000000000000546869734973534d43763245494430320000000000000000000000000000000000000000000000000000000000000000abcdef01234567890123e2d4c3d9") 222
  (go! "Proposal: Eyecatcher: SMC-R, Type: 1 (Proposal), Length: 222, Version: 2, Pathv2: SMC-R + SMC-D, Path: SMC-R + SMC-D, Peer ID: 14660@98:03:9b:ab:cd:ef, SMC-R GID: fe80::9a03:9bff:feab:cdef, RoCE MAC: 98:03:9b:ab:cd:ef, IP Area Offset: 40, SMC-D GID: 81985529216486895, ISMv2 VCHID: 4660, SMCv2 Extension Offset: 25, IPv4 Prefix: 127.0.0.0/8, IPv6 Prefix Count: 0, EID Number: 1, GID Number: 1, Release: 0, SEID Indicator: 1, SMC-Dv2 Extension Offset: 64, EID Area: [EID 0: ThisIsSMCv2EID01], SEID: ThisIsSMCv2EID02, GID Area: [GID 0: 12379813738877118345, VCHID 0: 291], Trailer: SMC-R")
  (go! "Proposal: Eyecatcher: SMC-R, Type: 1 (Proposal), Length: 222, Version: 2, Pathv2: SMC-R + SMC-D, Path: SMC-R + SMC-D, Peer ID: 14660@98:03:9b:ab:cd:ef, SMC-R GID: fe80::9a03:9bff:feab:cdef, RoCE MAC: 98:03:9b:ab:cd:ef, IP Area Offset: 40, SMC-D GID: 81985529216486895, ISMv2 VCHID: 4660, SMCv2 Extension Offset: 25, Reserved: 0x00000000000000000000000000000000000000000000000000000000, IPv4 Prefix: 127.0.0.0/8, Reserved: 0x0000, IPv6 Prefix Count: 0, EID Number: 1, GID Number: 1, Reserved: 0x0, Release: 0, Reserved: 0x0, SEID Indicator: 1, Reserved: 0x0000, SMC-Dv2 Extension Offset: 64, Reserved: 0x0000000000000000000000000000000000000000000000000000000000000000, EID Area: [EID 0: ThisIsSMCv2EID01], SEID: ThisIsSMCv2EID02, Reserved: 0x00000000000000000000000000000000, GID Area: [GID 0: 12379813738877118345, VCHID 0: 291], Trailer: SMC-R")

-- TestParseCLCProposalV2SMCBIPv6
#guard okMsg (hex! "e2d4c3d90100ef2f394498039babcdeffe800000000000009a039bfffeabcdef98039babcdef00280123456789abcdef12340019000000000000000000000000000000000000000000000000000000000000000000000001000000000000000000000000000000018001010001000000400000000000000000000000000000000000000000000000000000000000000000546869734973534d437632454944303100000000000000000000000000000000546869734973534d43763245494430320000000000000000000000000000000000000000000000000000000000000000abcdef01234567890123e2d4c3d9") 239
  (go! "Proposal: Eyecatcher: SMC-R, Type: 1 (Proposal), Length: 239, Version: 2, Pathv2: SMC-R + SMC-D, Path: SMC-R + SMC-D, Peer ID: 14660@98:03:9b:ab:cd:ef, SMC-R GID: fe80::9a03:9bff:feab:cdef, RoCE MAC: 98:03:9b:ab:cd:ef, IP Area Offset: 40, SMC-D GID: 81985529216486895, ISMv2 VCHID: 4660, SMCv2 Extension Offset: 25, IPv4 Prefix: 0.0.0.0/0, IPv6 Prefix Count: 1, IPv6 Prefix: ::1/128, EID Number: 1, GID Number: 1, Release: 0, SEID Indicator: 1, SMC-Dv2 Extension Offset: 64, EID Area: [EID 0: ThisIsSMCv2EID01], SEID: ThisIsSMCv2EID02, GID Area: [GID 0: 12379813738877118345, VCHID 0: 291], Trailer: SMC-R")
  (go! "Proposal: Eyecatcher: SMC-R, Type: 1 (Proposal), Length: 239, Version: 2, Pathv2: SMC-R + SMC-D, Path: SMC-R + SMC-D, Peer ID: 14660@98:03:9b:ab:cd:ef, SMC-R GID: fe80::9a03:9bff:feab:cdef, RoCE MAC: 98:03:9b:ab:cd:ef, IP Area Offset: 40, SMC-D GID: 81985529216486895, ISMv2 VCHID: 4660, SMCv2 Extension Offset: 25, Reserved: 0x00000000000000000000000000000000000000000000000000000000, IPv4 Prefix: 0.0.0.0/0, Reserved: 0x0000, IPv6 Prefix Count: 1, IPv6 Prefix: ::1/128, EID Number: 1, GID Number: 1, Reserved: 0x0, Release: 0, Reserved: 0x0, SEID Indicator: 1, Reserved: 0x0000, SMC-Dv2 Extension Offset: 64, Reserved: 0x0000000000000000000000000000000000000000000000000000000000000000, EID Area: [EID 0: ThisIsSMCv2EID01], SEID: ThisIsSMCv2EID02, Reserved: 0x00000000000000000000000000000000, GID Area: [GID 0: 12379813738877118345, VCHID 0: 291], Trailer: SMC-R")

-- TestParseCLCProposalV2SMCBv1IPv4
#guard okMsg (hex! "e2d4c3d901005c2b394498039babcdeffe800000000000009a039bfffeabcdef98039babcdef00280123456789abcdef12340000000000000000000000000000000000000000000000000000000000007f00000008000000e2d4c3d9") 92
  (go! "Proposal: Eyecatcher: SMC-R, Type: 1 (Proposal), Length: 92, Version: 2, Pathv2: No SMC-R/SMC-D, Path: SMC-R + SMC-D, Peer ID: 14660@98:03:9b:ab:cd:ef, SMC-R GID: fe80::9a03:9bff:feab:cdef, RoCE MAC: 98:03:9b:ab:cd:ef, IP Area Offset: 40, SMC-D GID: 81985529216486895, ISMv2 VCHID: 4660, SMCv2 Extension Offset: 0, IPv4 Prefix: 127.0.0.0/8, IPv6 Prefix Count: 0, Trailer: SMC-R")
  (go! "Proposal: Eyecatcher: SMC-R, Type: 1 (Proposal), Length: 92, Version: 2, Pathv2: No SMC-R/SMC-D, Path: SMC-R + SMC-D, Peer ID: 14660@98:03:9b:ab:cd:ef, SMC-R GID: fe80::9a03:9bff:feab:cdef, RoCE MAC: 98:03:9b:ab:cd:ef, IP Area Offset: 40, SMC-D GID: 81985529216486895, ISMv2 VCHID: 4660, SMCv2 Extension Offset: 0, Reserved: 0x00000000000000000000000000000000000000000000000000000000, IPv4 Prefix: 127.0.0.0/8, Reserved: 0x0000, IPv6 Prefix Count: 0, Trailer: SMC-R")

-- TestParseCLCProposalV2SMCBv1IPv6
#guard okMsg (hex! "e2d4c3d901006d2b394498039babcdeffe800000000000009a039bfffeabcdef98039babcdef00280123456789abcdef123400000000000000000000000000000000000000000000000000000000000000000000000000010000000000000000000000000000000180e2d4c3d9") 109
  (go! "Proposal: Eyecatcher: SMC-R, Type: 1 (Proposal), Length: 109, Version: 2, Pathv2: No SMC-R/SMC-D, Path: SMC-R + SMC-D, Peer ID: 14660@98:03:9b:ab:cd:ef, SMC-R GID: fe80::9a03:9bff:feab:cdef, RoCE MAC: 98:03:9b:ab:cd:ef, IP Area Offset: 40, SMC-D GID: 81985529216486895, ISMv2 VCHID: 4660, SMCv2 Extension Offset: 0, IPv4 Prefix: 0.0.0.0/0, IPv6 Prefix Count: 1, IPv6 Prefix: ::1/128, Trailer: SMC-R")
  (go! "Proposal: Eyecatcher: SMC-R, Type: 1 (Proposal), Length: 109, Version: 2, Pathv2: No SMC-R/SMC-D, Path: SMC-R + SMC-D, Peer ID: 14660@98:03:9b:ab:cd:ef, SMC-R GID: fe80::9a03:9bff:feab:cdef, RoCE MAC: 98:03:9b:ab:cd:ef, IP Area Offset: 40, SMC-D GID: 81985529216486895, ISMv2 VCHID: 4660, SMCv2 Extension Offset: 0, Reserved: 0x00000000000000000000000000000000000000000000000000000000, IPv4 Prefix: 0.0.0.0/0, Reserved: 0x0000, IPv6 Prefix Count: 1, IPv6 Prefix: ::1/128, Trailer: SMC-R")

end SMC.Tests
