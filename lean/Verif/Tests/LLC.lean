import Verif.LLC
/-!
# Unit tests of pkg/llc run through the model

The vectors of /repo/pkg/llc/*_test.go. These are tests of the model, not proofs.
-/

namespace SMC.Tests
open SMC LLC

/-- value of an execution that must not panic -/
def ok {α : Type} (x : Go α) (p : α → Bool) : Bool :=
  match x with
  | .ret [] a => p a
  | _ => false

/-! /repo/pkg/llc/cdc_test.go -/

#guard ok (parseCDC ⟨hex! "fe 2c 00 01 00 00 00 03 00 00 00 00 00 00 00 0d00 00 00 00 00 00 00 00 00 00 00 00 00 00 00 0000 00 00 00 00 00 00 00 00 00 00 00", []⟩) fun m =>
  m.string = go! "CDC: Type: 254, Length 44, Sequence Number: 1, Alert Token: 3, Producer Wrap: 0, Producer Cursor: 13, Consumer Wrap: 0, Consumer Cursor: 0, Writer Blocked: false, Urgent Data Pending: false, Urgent Data Present: false, Request for Consumer Cursor Update: false, Failover Validation: false, Sending Done: false, Peer Connection Closed: false, Abnormal Close: false\n" ∧
  m.reserved = go! "CDC: Type: 254, Length 44, Sequence Number: 1, Alert Token: 3, Reserved: 0x0000, Producer Wrap: 0, Producer Cursor: 13, Reserved: 0x0000, Consumer Wrap: 0, Consumer Cursor: 0, Writer Blocked: false, Urgent Data Pending: false, Urgent Data Present: false, Request for Consumer Cursor Update: false, Failover Validation: false, Reserved: 0x0, Sending Done: false, Peer Connection Closed: false, Abnormal Close: false, Reserved: 0x00000000000000000000000000000000000000\n" ∧
  m.base.hex = go! "00000000  fe 2c 00 01 00 00 00 03  00 00 00 00 00 00 00 0d  |.,..............|\n00000010  00 00 00 00 00 00 00 00  00 00 00 00 00 00 00 00  |................|\n00000020  00 00 00 00 00 00 00 00  00 00 00 00              |............|\n" ∧
  m.base.getType = 0xFE

/-! /repo/pkg/llc/llc_addlink_test.go -/

#guard ok (parseAddLink ⟨hex! "02 2c 00 00 98 03 9b ab cd ef 00 00 fe 80 00 0000 00 00 00 9a 03 9b ff fe ab cd ef 00 00 00 0000 00 00 00 00 00 00 00 00 00 00 00", []⟩) fun m =>
  m.string = go! "LLC Add Link: Type: 2, Length: 44, Reason Code: 0 (unknown), Reply: false, Rejection: false, Sender MAC: 98:03:9b:ab:cd:ef, Sender GID: fe80::9a03:9bff:feab:cdef, Sender QP: 0, Link: 0, MTU: 0 (reserved), Initial PSN: 0\n" ∧
  m.reserved = go! "LLC Add Link: Type: 2, Length: 44, Reserved: 0x0, Reason Code: 0 (unknown), Reply: false, Rejection: false, Reserved: 0x0, Sender MAC: 98:03:9b:ab:cd:ef, Sender GID: fe80::9a03:9bff:feab:cdef, Sender QP: 0, Link: 0, Reserved: 0x0, MTU: 0 (reserved), Initial PSN: 0, Reserved: 0x00000000000000000000\n" ∧
  m.base.hex = go! "00000000  02 2c 00 00 98 03 9b ab  cd ef 00 00 fe 80 00 00  |.,..............|\n00000010  00 00 00 00 9a 03 9b ff  fe ab cd ef 00 00 00 00  |................|\n00000020  00 00 00 00 00 00 00 00  00 00 00 00              |............|\n" ∧
  m.base.getType = 2

/-! /repo/pkg/llc/llc_addlinkcont_test.go -/

#guard ok (parseAddLinkCont ⟨hex! "03 2c 00 80 01 01 00 00 00 00 00 01 00 00 00 0200 00 00 00 00 00 00 03 00 00 00 04 00 00 00 0500 00 00 00 00 00 00 06 00 00 00 00", []⟩) fun m =>
  m.string = go! "LLC Add Link Continuation: Type: 3, Length: 44, Reply: true, Link: 1, Number of RTokens: 1, RKey Pair 2: [Reference RKey: 4, New RKey: 5, New Virtual Address: 0x6]\n" ∧
  m.reserved = go! "LLC Add Link Continuation: Type: 3, Length: 44, Reserved: 0x0, Reply: true, Reserved: 0x0, Link: 1, Number of RTokens: 1, Reserved: 0x0000, RKey Pair 2: [Reference RKey: 4, New RKey: 5, New Virtual Address: 0x6], Reserved: 0x00000000\n" ∧
  m.base.hex = go! "00000000  03 2c 00 80 01 01 00 00  00 00 00 01 00 00 00 02  |.,..............|\n00000010  00 00 00 00 00 00 00 03  00 00 00 04 00 00 00 05  |................|\n00000020  00 00 00 00 00 00 00 06  00 00 00 00              |............|\n" ∧
  m.base.getType = 3

/-! /repo/pkg/llc/llc_confirmlink_test.go -/

#guard ok (parseConfirm ⟨hex! "01 2c 00 03 98 03 9b ab cd ef fe 80 00 00 00 0000 00 9a 03 9b ff fe ab cd ef 00 01 07 00 00 0100 00 02 00 00 00 00 00 00 00 00 00", []⟩) fun m =>
  m.string = go! "LLC Confirm Link: Type: 1, Length: 44, Reply: false, Sender MAC: 98:03:9b:ab:cd:ef, Sender GID: fe80::9a03:9bff:feab:cdef, Sender QP: 263, Link: 0, Sender Link UserID: 65536, Max Links: 2\n" ∧
  m.reserved = go! "LLC Confirm Link: Type: 1, Length: 44, Reserved: 0x0, Reply: false, Reserved: 0x3, Sender MAC: 98:03:9b:ab:cd:ef, Sender GID: fe80::9a03:9bff:feab:cdef, Sender QP: 263, Link: 0, Sender Link UserID: 65536, Max Links: 2, Reserved: 0x000000000000000000\n" ∧
  m.base.hex = go! "00000000  01 2c 00 03 98 03 9b ab  cd ef fe 80 00 00 00 00  |.,..............|\n00000010  00 00 9a 03 9b ff fe ab  cd ef 00 01 07 00 00 01  |................|\n00000020  00 00 02 00 00 00 00 00  00 00 00 00              |............|\n" ∧
  m.base.getType = 1

/-! /repo/pkg/llc/llc_confirmrkey_test.go -/

#guard ok (parseConfirmRKey ⟨hex! "06 2c 00 00 00 00 00 15 5d 00 00 00 0e ef 4d 0000 00 00 00 00 00 00 00 00 00 00 00 00 00 00 0000 00 00 00 00 00 00 00 00 00 00 00", []⟩) fun m =>
  m.string = go! "LLC Confirm RKey: Type: 6, Length: 44, Reply: false, Negative Response: false, Configuration Retry: false, Number of Tokens: 0, This RKey: 5469, This VAddr: 0xeef4d0000, Other Link RMB 1: [Link: 0, RKey: 0, Virtual Address: 0x0], Other Link RMB 2: [Link: 0, RKey: 0, Virtual Address: 0x0]\n" ∧
  m.reserved = go! "LLC Confirm RKey: Type: 6, Length: 44, Reserved: 0x0, Reply: false, Reserved: 0x0, Negative Response: false, Configuration Retry: false, Reserved: 0x0, Number of Tokens: 0, This RKey: 5469, This VAddr: 0xeef4d0000, Other Link RMB 1: [Link: 0, RKey: 0, Virtual Address: 0x0], Other Link RMB 2: [Link: 0, RKey: 0, Virtual Address: 0x0], Reserved: 0x0\n" ∧
  m.base.hex = go! "00000000  06 2c 00 00 00 00 00 15  5d 00 00 00 0e ef 4d 00  |.,......].....M.|\n00000010  00 00 00 00 00 00 00 00  00 00 00 00 00 00 00 00  |................|\n00000020  00 00 00 00 00 00 00 00  00 00 00 00              |............|\n" ∧
  m.base.getType = 6

/-! /repo/pkg/llc/llc_confirmrkeycont_test.go -/

#guard ok (parseConfirmRKeyCont ⟨hex! "08 2c 00 a0 01 01 00 00 00 02 00 00 00 00 00 0000 03 04 00 00 00 05 00 00 00 00 00 00 00 06 0700 00 00 08 00 00 00 00 00 00 00 09 00", []⟩) fun m =>
  m.string = go! "LLC Confirm RKey Continuation: Type: 8, Length: 44, Reply: true, Negative Response: true, Number of Tokens: 1, Other Link RMB 1: [Link: 1, RKey: 2, Virtual Address: 0x3], Other Link RMB 2: [Link: 4, RKey: 5, Virtual Address: 0x6], Other Link RMB 3: [Link: 7, RKey: 8, Virtual Address: 0x9]\n" ∧
  m.reserved = go! "LLC Confirm RKey Continuation: Type: 8, Length: 44, Reserved: 0x0, Reply: true, Reserved: 0x0, Negative Response: true, Reserved: 0x0, Number of Tokens: 1, Other Link RMB 1: [Link: 1, RKey: 2, Virtual Address: 0x3], Other Link RMB 2: [Link: 4, RKey: 5, Virtual Address: 0x6], Other Link RMB 3: [Link: 7, RKey: 8, Virtual Address: 0x9], Reserved: 0x0\n" ∧
  m.base.hex = go! "00000000  08 2c 00 a0 01 01 00 00  00 02 00 00 00 00 00 00  |.,..............|\n00000010  00 03 04 00 00 00 05 00  00 00 00 00 00 00 06 07  |................|\n00000020  00 00 00 08 00 00 00 00  00 00 00 09 00           |.............|\n" ∧
  m.base.getType = 8

/-! /repo/pkg/llc/llc_deletelink_test.go -/

#guard ok (parseDeleteLink ⟨hex! "04 2c 00 60 00 00 00 00 00 00 00 00 00 00 00 0000 00 00 00 00 00 00 00 00 00 00 00 00 00 00 0000 00 00 00 00 00 00 00 00 00 00 00", []⟩) fun m =>
  m.string = go! "LLC Delete Link: Type: 4, Length: 44, Reply: false, All: true, Orderly: true, Link: 0, Reason Code: 0 (unknown)\n" ∧
  m.reserved = go! "LLC Delete Link: Type: 4, Length: 44, Reserved: 0x0, Reply: false, All: true, Orderly: true, Reserved: 0x0, Link: 0, Reason Code: 0 (unknown), Reserved: 0x0000000000000000000000000000000000000000000000000000000000000000000000\n" ∧
  m.base.hex = go! "00000000  04 2c 00 60 00 00 00 00  00 00 00 00 00 00 00 00  |.,.`............|\n00000010  00 00 00 00 00 00 00 00  00 00 00 00 00 00 00 00  |................|\n00000020  00 00 00 00 00 00 00 00  00 00 00 00              |............|\n" ∧
  m.base.getType = 4

/-! /repo/pkg/llc/llc_deleterkey_test.go -/

#guard ok (parseDeleteRKey ⟨hex! "09 2c 00 00 01 00 00 00 00 00 15 5d 00 00 00 0000 00 00 00 00 00 00 00 00 00 00 00 00 00 00 0000 00 00 00 00 00 00 00 00 00 00 00", []⟩) fun m =>
  m.string = go! "LLC Delete RKey: Type: 9, Length: 44, Reply: false, Negative Response: false, Count: 1, Error Mask: 0b0, RKey 0: 5469, RKey 1: 0, RKey 2: 0, RKey 3: 0, RKey 4: 0, RKey 5: 0, RKey 6: 0, RKey 7: 0\n" ∧
  m.reserved = go! "LLC Delete RKey: Type: 9, Length: 44, Reserved: 0x0, Reply: false, Reserved: 0x0, Negative Response: false, Reserved: 0x0, Count: 1, Error Mask: 0b0, Reserved: 0x0000, RKey 0: 5469, RKey 1: 0, RKey 2: 0, RKey 3: 0, RKey 4: 0, RKey 5: 0, RKey 6: 0, RKey 7: 0, Reserved: 0x00000000\n" ∧
  m.base.hex = go! "00000000  09 2c 00 00 01 00 00 00  00 00 15 5d 00 00 00 00  |.,.........]....|\n00000010  00 00 00 00 00 00 00 00  00 00 00 00 00 00 00 00  |................|\n00000020  00 00 00 00 00 00 00 00  00 00 00 00              |............|\n" ∧
  m.base.getType = 9

/-! /repo/pkg/llc/llc_testlink_test.go -/

#guard ok (parseTestLink ⟨hex! "07 2c 00 80 00 00 00 00 00 00 00 00 00 00 00 0000 00 00 00 00", []⟩) fun m =>
  m.string = go! "LLC Test Link: Type 7, Length: 44, Reply: true, User Data: 0x00000000000000000000000000000000\n" ∧
  m.reserved = go! "LLC Test Link: Type 7, Length: 44, Reserved: 0x0, Reply: true, Reserved: 0x0, User Data: 0x00000000000000000000000000000000, Reserved: 0x000000000000000000000000000000000000000000000000\n" ∧
  m.base.hex = go! "00000000  07 2c 00 80 00 00 00 00  00 00 00 00 00 00 00 00  |.,..............|\n00000010  00 00 00 00 00                                    |.....|\n" ∧
  m.base.getType = 7

/-! /repo/pkg/llc/other_test.go -/

#guard ok (parseOther ⟨hex! "0a 00 00 01", []⟩) fun m =>
  m.string = go! "Other Payload\n" ∧
  m.reserved = go! "Other Payload\n" ∧
  m.base.hex = go! "00000000  0a 00 00 01                                       |....|\n" ∧
  m.base.getType = 0x101

end SMC.Tests
