{
 "claims": [
  {
   "property": "C01",
   "status": "partial",
   "theorems": [
    "SMC.Props.C01_parseLLC_panics_iff",
    "SMC.Props.C01_parseLLC_total_false",
    "SMC.Props.C01_parseLLC_total_partial"
   ],
   "note": "False of the code: ParseLLC panics on every 44 byte buffer whose first byte is 8 (ConfirmRKeyCont.Parse reads a 45th byte). The exact panic condition is proved as an equivalence; no other buffer panics."
  },
  {
   "property": "C02",
   "status": "partial",
   "theorems": [
    "SMC.Props.C02_parseLLC_dispatch_partial",
    "SMC.Props.C02_parseLLC_returns_partial",
    "SMC.Props.C02_confirmRKeyCont_false"
   ],
   "note": "Holds for every kind but Confirm RKey Continuation, for which ParseLLC never returns (see C01)."
  },
  {
   "property": "C03",
   "status": "proved",
   "theorems": [
    "SMC.Props.C03_other"
   ],
   "note": ""
  },
  {
   "property": "C04",
   "status": "proved",
   "theorems": [
    "SMC.Props.C04_confirmLink_wire"
   ],
   "note": "Every field, reserved ones included, for every receiver, every 44 byte message and every capacity."
  },
  {
   "property": "C05",
   "status": "proved",
   "theorems": [
    "SMC.Props.C05_addLink_wire",
    "SMC.Props.C05_parseAddLink_wire"
   ],
   "note": "res4 has ten bytes in the code but only eight are in the message; the last two keep the receiver's bytes (zero in ParseAddLink)."
  },
  {
   "property": "C06",
   "status": "proved",
   "theorems": [
    "SMC.Props.C06_addLinkCont_wire"
   ],
   "note": "Every field, reserved ones included, for every receiver, every 44 byte message and every capacity."
  },
  {
   "property": "C07",
   "status": "proved",
   "theorems": [
    "SMC.Props.C07_deleteLink_wire"
   ],
   "note": "Every field, reserved ones included, for every receiver, every 44 byte message and every capacity."
  },
  {
   "property": "C08",
   "status": "proved",
   "theorems": [
    "SMC.Props.C08_confirmRKey_wire"
   ],
   "note": "Every field, reserved ones included, for every receiver, every 44 byte message and every capacity."
  },
  {
   "property": "C09",
   "status": "partial",
   "theorems": [
    "SMC.Props.C09_confirmRKeyCont_false",
    "SMC.Props.C09_confirmRKeyCont_wire_partial"
   ],
   "note": "Refuted for 44 byte messages (panic); the layout is proved for buffers of at least 45 bytes."
  },
  {
   "property": "C10",
   "status": "proved",
   "theorems": [
    "SMC.Props.C10_deleteRKey_wire"
   ],
   "note": "Every field, reserved ones included, for every receiver, every 44 byte message and every capacity."
  },
  {
   "property": "C11",
   "status": "proved",
   "theorems": [
    "SMC.Props.C11_testLink_wire"
   ],
   "note": "Every field, reserved ones included, for every receiver, every 44 byte message and every capacity."
  },
  {
   "property": "C12",
   "status": "proved",
   "theorems": [
    "SMC.Props.C12_cdc_wire"
   ],
   "note": "Every field, reserved ones included, for every receiver, every 44 byte message and every capacity."
  },
  {
   "property": "C13",
   "status": "partial",
   "theorems": [
    "SMC.Props.C13_lossless_partial",
    "SMC.Props.C13_confirmRKeyCont_lossless_partial",
    "SMC.Props.C13_roundtrip_partial",
    "SMC.Props.C13_confirmRKeyCont_false"
   ],
   "note": "Proved, in both directions, for every kind but Confirm RKey Continuation, whose 44 byte messages make the parser panic (refuted); for that kind lossless on buffers of at least 45 bytes."
  },
  {
   "property": "C14",
   "status": "proved",
   "theorems": [
    "SMC.Props.C14_parseConfirm",
    "SMC.Props.C14_parseAddLink",
    "SMC.Props.C14_parseAddLinkCont",
    "SMC.Props.C14_parseDeleteLink",
    "SMC.Props.C14_parseConfirmRKey",
    "SMC.Props.C14_parseConfirmRKeyCont",
    "SMC.Props.C14_parseDeleteRKey",
    "SMC.Props.C14_parseTestLink",
    "SMC.Props.C14_parseCDC",
    "SMC.Props.C14_parseOther"
   ],
   "note": "Exact bounds 35/36/40/9/44/45/40/20/26. The bound 45 of ParseConfirmRKeyCont is one more than the message size, see C01."
  },
  {
   "property": "C15",
   "status": "proved",
   "theorems": [
    "SMC.Props.C15_getType"
   ],
   "note": ""
  },
  {
   "property": "C16",
   "status": "proved",
   "theorems": [
    "SMC.Props.C16_undump_hexDump",
    "SMC.Props.C16_llc_hex",
    "SMC.Props.C16_roce_hex",
    "SMC.Props.C16_clc_dump"
   ],
   "note": ""
  },
  {
   "property": "C17",
   "status": "proved",
   "theorems": [
    "SMC.Props.C17_llc_owned",
    "SMC.Props.C17_llc_methods",
    "SMC.Props.C17_llc_panics_iff"
   ],
   "note": "Parsers modelled a second time on memory with references; the two models agree. Events: any writes outside the arrays the call allocated, and allocations."
  },
  {
   "property": "C18",
   "status": "partial",
   "theorems": [
    "SMC.Props.C18_addLink_false",
    "SMC.Props.C18_reparse_partial",
    "SMC.Props.C18_addLink_reparse_partial",
    "SMC.Props.C18_exact"
   ],
   "note": "False for Add Link of 44 bytes (two stale bytes in res4); proved for all other kinds and for Add Link from 46 bytes, and for Add Link of 44 bytes up to these two bytes. C18_exact: nothing stale shows exactly if the buffer is too short or fills all fields."
  },
  {
   "property": "C19",
   "status": "proved",
   "theorems": [
    "SMC.Props.C19_string"
   ],
   "note": ""
  },
  {
   "property": "C20",
   "status": "partial",
   "theorems": [
    "SMC.Props.C20_string_partial",
    "SMC.Props.C20_addLinkCont_false",
    "SMC.Props.C20_addLinkCont_partial",
    "SMC.Props.C20_parsed_partial",
    "SMC.Props.C20_exact"
   ],
   "note": "Proved for every kind but Add Link Continuation, whose text shows only the second RKey pair (refuted, and proved for the other fields). Unknown (Other) messages are left out: their text is constant. C20_exact says exactly what is shown."
  },
  {
   "property": "C21",
   "status": "partial",
   "theorems": [
    "SMC.Props.C21_reserved_partial",
    "SMC.Props.C21_addLink_false",
    "SMC.Props.C21_addLink_partial",
    "SMC.Props.C21_addLinkCont_false",
    "SMC.Props.C21_addLinkCont_partial",
    "SMC.Props.C21_parsed_partial",
    "SMC.Props.C21_exact"
   ],
   "note": "Proved for all kinds but Add Link (the two bytes res5 are not shown) and Add Link Continuation (only the second RKey pair is shown); for these refuted and proved for the other fields. C21_exact says exactly what is shown."
  },
  {
   "property": "C22",
   "status": "proved",
   "theorems": [
    "SMC.Props.C22_v2_cut",
    "SMC.Props.C22_v1_cut",
    "SMC.Props.C22_v2_panics_iff",
    "SMC.Props.C22_v1_panics_iff",
    "SMC.Props.C22_v2_crash",
    "SMC.Props.C22_v1_crash"
   ],
   "note": "Panics iff shorter than 56 (16) bytes or ParseLLC panics on the payload."
  },
  {
   "property": "C23",
   "status": "proved",
   "theorems": [
    "SMC.Props.C23_bth_wire",
    "SMC.Props.C23_bth_panics_iff"
   ],
   "note": ""
  },
  {
   "property": "C24",
   "status": "proved",
   "theorems": [
    "SMC.Props.C24_bth_lossless",
    "SMC.Props.C24_bth_roundtrip"
   ],
   "note": ""
  },
  {
   "property": "C25",
   "status": "proved",
   "theorems": [
    "SMC.Props.C25_opcode_text",
    "SMC.Props.C25_opcode_injective"
   ],
   "note": ""
  },
  {
   "property": "C26",
   "status": "proved",
   "theorems": [
    "SMC.Props.C26_grh_wire",
    "SMC.Props.C26_grh_next"
   ],
   "note": "The gopacket IPv6 decoder is modelled from RFC 8200, the table of protocol names is a parameter."
  },
  {
   "property": "C27",
   "status": "proved",
   "theorems": [
    "SMC.Props.C27_v1_v2"
   ],
   "note": ""
  },
  {
   "property": "C28",
   "status": "proved",
   "theorems": [
    "SMC.Props.C28_hasEyecatcher",
    "SMC.Props.C28_hasEyecatcher_len",
    "SMC.Props.C28_hasEyecatcher_panics_iff"
   ],
   "note": ""
  },
  {
   "property": "C29",
   "status": "proved",
   "theorems": [
    "SMC.Props.C29_newMessage_kind",
    "SMC.Props.C29_newMessage_log"
   ],
   "note": ""
  },
  {
   "property": "C30",
   "status": "proved",
   "theorems": [
    "SMC.Props.C30_newMessage_length"
   ],
   "note": ""
  },
  {
   "property": "C31",
   "status": "proved",
   "theorems": [
    "SMC.Props.C31_newMessage_no_panic",
    "SMC.Props.C31_newMessage_local",
    "SMC.Props.C31_newMessage_short"
   ],
   "note": ""
  },
  {
   "property": "C32",
   "status": "proved",
   "theorems": [
    "SMC.Props.C32_message_header",
    "SMC.Props.C32_header_wire",
    "SMC.Props.C32_header_panics_iff",
    "SMC.Props.C32_header_lossless"
   ],
   "note": ""
  },
  {
   "property": "C33",
   "status": "partial",
   "theorems": [
    "SMC.Props.C33_panics_iff",
    "SMC.Props.C33_complete_partial",
    "SMC.Props.C33_proposal_false",
    "SMC.Props.C33_proposalV2_panics_iff",
    "SMC.Props.C33_proposalV2_false"
   ],
   "note": "False for Proposals: version 1 with IP area offset 40 in a buffer with capacity below 80, version 2 with more than eight EIDs or GIDs that fit. The panic condition on complete messages is proved exactly and is empty for all other kinds."
  },
  {
   "property": "C34",
   "status": "proved",
   "theorems": [
    "SMC.Props.C34_decline_wire",
    "SMC.Props.C34_declineV2_wire"
   ],
   "note": ""
  },
  {
   "property": "C35",
   "status": "proved",
   "theorems": [
    "SMC.Props.C35_smcr_wire"
   ],
   "note": ""
  },
  {
   "property": "C36",
   "status": "proved",
   "theorems": [
    "SMC.Props.C36_smcd_wire"
   ],
   "note": ""
  },
  {
   "property": "C37",
   "status": "proved",
   "theorems": [
    "SMC.Props.C37_smcdv2_wire"
   ],
   "note": ""
  },
  {
   "property": "C38",
   "status": "proved",
   "theorems": [
    "SMC.Props.C38_proposal_wire",
    "SMC.Props.C38_proposal_outside"
   ],
   "note": ""
  },
  {
   "property": "C39",
   "status": "proved",
   "theorems": [
    "SMC.Props.C39_proposalV2_wire"
   ],
   "note": ""
  },
  {
   "property": "C40",
   "status": "proved",
   "theorems": [
    "SMC.Props.C40_short",
    "SMC.Props.C40_short_panics_iff",
    "SMC.Props.C40_buffer"
   ],
   "note": "Panics exactly if the declared bytes exceed the capacity of the buffer."
  },
  {
   "property": "C41",
   "status": "proved",
   "theorems": [
    "SMC.Props.C41_proposal_prefixes",
    "SMC.Props.C41_proposalV2_prefixes"
   ],
   "note": ""
  },
  {
   "property": "C42",
   "status": "proved",
   "theorems": [
    "SMC.Props.C42_eids",
    "SMC.Props.C42_gids",
    "SMC.Props.C42_no_panic"
   ],
   "note": ""
  },
  {
   "property": "C43",
   "status": "partial",
   "theorems": [
    "SMC.Props.C43_log_partial",
    "SMC.Props.C43_log_false",
    "SMC.Props.C43_fields_partial",
    "SMC.Props.C43_fields_false",
    "SMC.Props.C43_exact"
   ],
   "note": "False for Proposals of version 1 with IP area offset 40 that declare less than 80 bytes: part of their SMC-D info is read from behind the message. Proved for everything else. This is the exact condition (C43_exact)."
  },
  {
   "property": "C44",
   "status": "partial",
   "theorems": [
    "SMC.Props.C44_trailer",
    "SMC.Props.C44_rejected",
    "SMC.Props.C44_trailer_partial",
    "SMC.Props.C44_trailer_false",
    "SMC.Props.C44_exact"
   ],
   "note": "False if bytes follow the message: the trailer is read from the end of the buffer. Proved for buffers that end with the message. In longer buffers it holds exactly if the last four bytes of the buffer are those of the message (C44_exact)."
  },
  {
   "property": "C45",
   "status": "partial",
   "theorems": [
    "SMC.Props.C45_crashes",
    "SMC.Props.C45_panics_iff",
    "SMC.Props.C45_truncated_false",
    "SMC.Props.C45_truncated_partial"
   ],
   "note": "False of every kind. The exact panic condition is proved for every kind, buffer and capacity (C45_crashes), and that truncated messages other than Proposals do not panic if the minimum length is in the buffer (without first contact extension)."
  },
  {
   "property": "C46",
   "status": "partial",
   "theorems": [
    "SMC.Props.C46_reuse_partial",
    "SMC.Props.C46_reuse_fce",
    "SMC.Props.C46_reuse_false_proposal",
    "SMC.Props.C46_reuse_false_fce",
    "SMC.Props.C46_reuse_false_proposalV2",
    "SMC.Props.C46_exact"
   ],
   "note": "False of Proposals of both versions, of SMC-Dv2 Accepts and Confirms without first contact extension, and of Declines of version 1 whose OSType was set by the caller (stale fields). C46_exact: true of exactly the other messages. C46_reuse_partial: true of all messages if the fields in question are zero before."
  },
  {
   "property": "C47",
   "status": "proved",
   "theorems": [
    "SMC.Props.C47_confirm_as_accept",
    "SMC.Props.C47_type_irrelevant"
   ],
   "note": ""
  },
  {
   "property": "C48",
   "status": "proved",
   "theorems": [
    "SMC.Props.C48_silence",
    "SMC.Props.C48_success"
   ],
   "note": ""
  },
  {
   "property": "C49",
   "status": "proved",
   "theorems": [
    "SMC.Props.C49_string_ignores_reserved"
   ],
   "note": ""
  },
  {
   "property": "C50",
   "status": "partial",
   "theorems": [
    "SMC.Props.C50_string_partial",
    "SMC.Props.C50_string_noEIDs",
    "SMC.Props.C50_plain",
    "SMC.Props.C50_parsed_noEIDs",
    "SMC.Props.C50_eid_false",
    "SMC.Props.C50_eid_padding_false",
    "SMC.Props.C50_exact",
    "SMC.Props.C50_smcdv2_exact"
   ],
   "note": "Proved for all kinds without EIDs, and for the others if EID and host name texts contain no comma or closing bracket. False otherwise: EID texts can imitate the text of other EIDs, and what follows the first NUL or is a trailing blank is not shown. C50_exact says for all messages exactly when texts are the same: names in a Proposal can only be taken for other names, never for other fields, and those of SMC-Dv2 messages for nothing else at all (C50_smcdv2_exact)."
  },
  {
   "property": "C51",
   "status": "proved",
   "theorems": [
    "SMC.Props.C51_eid_text",
    "SMC.Props.C51_eid_text_unique"
   ],
   "note": ""
  },
  {
   "property": "C52",
   "status": "proved",
   "theorems": [
    "SMC.Props.C52_rmbe_size",
    "SMC.Props.C52_rmbe_beyond",
    "SMC.Props.C52_smcr_parsed",
    "SMC.Props.C52_smcd_parsed",
    "SMC.Props.C52_smcdv2_parsed"
   ],
   "note": ""
  },
  {
   "property": "C53",
   "status": "proved",
   "theorems": [
    "SMC.Props.C53_known",
    "SMC.Props.C53_unknown",
    "SMC.Props.C53_injective",
    "SMC.Props.C53_descriptions"
   ],
   "note": ""
  },
  {
   "property": "C54",
   "status": "proved",
   "theorems": [
    "SMC.Props.C54_clc_aliased",
    "SMC.Props.C54_clc_aliased_used",
    "SMC.Props.C54_clc_methods",
    "SMC.Props.C54_new_message",
    "SMC.Props.C54_clc_panics_iff",
    "SMC.Props.C54_dump_changes"
   ],
   "note": "On memory with references: Dump shows the buffer as it is then, all else is unchanged. For new message values and used ones."
  },
  {
   "property": "C55",
   "status": "proved",
   "theorems": [
    "SMC.Props.C55_option"
   ],
   "note": ""
  },
  {
   "property": "C56",
   "status": "partial",
   "theorems": [
    "SMC.Props.C56_ignored",
    "SMC.Props.C56_exact",
    "SMC.Props.C56_offsets_partial",
    "SMC.Props.C56_offsets_false"
   ],
   "note": "False: the offset fields are ignored; whatever they are, everything else is decoded the same (C56_ignored). An area is read at its offset exactly if the bytes there are the same as directly behind the previous part (C56_exact). Proved for messages whose offsets match the position directly behind the previous part."
  },
  {
   "property": "C57",
   "status": "partial",
   "theorems": [
    "SMC.Props.C57_fce_partial",
    "SMC.Props.C57_fce_false",
    "SMC.Props.C57_exact"
   ],
   "note": "False for messages that declare more than 114 bytes. Proved for all others. Longer ones never have it decoded and always show it (C57_exact)."
  },
  {
   "property": "C58",
   "status": "proved",
   "theorems": [
    "SMC.Props.C58_rocev1_owned",
    "SMC.Props.C58_rocev2_owned",
    "SMC.Props.C58_roce_panics_iff",
    "SMC.Props.C58_icrc_changes"
   ],
   "note": "On memory with references: only ICRC changes, it shows the last four bytes as they are then. Assumes gopacket.NewPacket copies, as documented for gopacket.Default."
  },
  {
   "property": "C60",
   "status": "proved",
   "theorems": [
    "SMC.Props.C60_linearizable",
    "SMC.Props.C60_whole_writes",
    "SMC.Props.C60_visible"
   ],
   "note": "Every interleaving of any number of goroutines, with copying byte by byte; sequentially consistent memory assumed."
  },
  {
   "property": "C61",
   "status": "proved",
   "theorems": [
    "SMC.Props.C61_exclusion",
    "SMC.Props.C61_writes_inside"
   ],
   "note": ""
  },
  {
   "property": "C62",
   "status": "proved",
   "theorems": [
    "SMC.Props.C62_copy_independent"
   ],
   "note": ""
  },
  {
   "property": "C63",
   "status": "partial",
   "theorems": [
    "SMC.Props.C63_false",
    "SMC.Props.C63_false_unsent",
    "SMC.Props.C63_window",
    "SMC.Props.C63_partial",
    "SMC.Props.C63_alone_partial",
    "SMC.Props.C63_alone_exact"
   ],
   "note": "False: a write between copy and reset is lost, and so is a response that could not be sent. Proved: exactly what a reset discards, no loss if nothing is written in that window and the response is sent in full, and for requests handled alone that they lose nothing exactly if they do not flush or everything was sent."
  },
  {
   "property": "C64",
   "status": "proved",
   "theorems": [
    "SMC.Props.C64_condition",
    "SMC.Props.C64_check",
    "SMC.Props.C64_never",
    "SMC.Props.C64_alone"
   ],
   "note": ""
  },
  {
   "property": "C65",
   "status": "partial",
   "theorems": [
    "SMC.Props.C65_false",
    "SMC.Props.C65_returns_iff",
    "SMC.Props.C65_partial"
   ],
   "note": "False: the second successful call panics after replacing the listener. Proved: exactly when a call returns, and what it returns."
  },
  {
   "property": "C66",
   "status": "proved",
   "theorems": [
    "SMC.Props.C66_no_deadlock",
    "SMC.Props.C66_bounded",
    "SMC.Props.C66_completes"
   ],
   "note": ""
  },
  {
   "property": "C67",
   "status": "proved",
   "theorems": [
    "SMC.Props.C67_family",
    "SMC.Props.C67_protocol"
   ],
   "note": ""
  },
  {
   "property": "C68",
   "status": "proved",
   "theorems": [
    "SMC.Props.C68_split",
    "SMC.Props.C68_defaults",
    "SMC.Props.C68_forms"
   ],
   "note": "For every resolver; net.SplitHostPort is modelled and specified, that the service \"0\" is port 0 is a hypothesis on the resolver."
  },
  {
   "property": "C69",
   "status": "partial",
   "theorems": [
    "SMC.Props.C69_false",
    "SMC.Props.C69_exits_iff",
    "SMC.Props.C69_partial",
    "SMC.Props.C69_panics_iff",
    "SMC.Props.C69_executions"
   ],
   "note": "False: malformed addresses and unknown ports terminate the process. Proved: exactly when it is terminated, exactly when it panics, and the error for unresolvable hosts and zones."
  },
  {
   "property": "C70",
   "status": "proved",
   "theorems": [
    "SMC.Props.C70_no_leak"
   ],
   "note": "Every interleaving of any number of calls, others that open and close descriptors, and finalizers."
  },
  {
   "property": "C71",
   "status": "partial",
   "theorems": [
    "SMC.Props.C71_false",
    "SMC.Props.C71_finalizers_close_again",
    "SMC.Props.C71_partial",
    "SMC.Props.C71_quiet_partial"
   ],
   "note": "False: the finalizer of the os.File closes the descriptor number again. Proved: every finalizer does that; without finalizers only own sockets are closed, and with finalizers that find their numbers not in use only own sockets and numbers not in use."
  },
  {
   "property": "C72",
   "status": "proved",
   "theorems": [
    "SMC.Props.C72_dial",
    "SMC.Props.C72_listen"
   ],
   "note": ""
  },
  {
   "property": "C73",
   "status": "proved",
   "theorems": [
    "SMC.Props.C73_bth_string",
    "SMC.Props.C73_bth_reserved",
    "SMC.Props.C73_bth_string_ignores"
   ],
   "note": ""
  },
  {
   "property": "C74",
   "status": "proved",
   "theorems": [
    "SMC.Props.C74_spare_llc",
    "SMC.Props.C74_spare_roce"
   ],
   "note": ""
  },
  {
   "property": "C75",
   "status": "partial",
   "theorems": [
    "SMC.Props.C75_string_partial",
    "SMC.Props.C75_addLinkCont_partial",
    "SMC.Props.C75_confirmRKeyCont_partial",
    "SMC.Props.C75_addLinkCont_false",
    "SMC.Props.C75_exact"
   ],
   "note": "False for Add Link Continuation, whose text leaves out the first RKey pair. Proved for all other types that ParseLLC returns, for Add Link Continuation without that field, and for Confirm RKey Continuation on more than 44 bytes (ParseLLC panics on it). Add Link Continuation is the exact exception (C75_exact)."
  },
  {
   "property": "C76",
   "status": "partial",
   "theorems": [
    "SMC.Props.C76_reserved_partial",
    "SMC.Props.C76_addLink_partial",
    "SMC.Props.C76_confirmRKeyCont_partial",
    "SMC.Props.C76_addLink_false",
    "SMC.Props.C76_exact"
   ],
   "note": "False for Add Link Continuation (first RKey pair left out) and Add Link (two reserved bytes left out, two zero bytes shown instead). Proved for all other types, for these without the bytes in question, and for Confirm RKey Continuation on more than 44 bytes. These two are the exact exceptions (C76_exact)."
  },
  {
   "property": "C77",
   "status": "proved",
   "theorems": [
    "SMC.Props.C77_v2_texts",
    "SMC.Props.C77_v1_texts"
   ],
   "note": ""
  },
  {
   "property": "C78",
   "status": "partial",
   "theorems": [
    "SMC.Props.C78_string_partial",
    "SMC.Props.C78_string_false",
    "SMC.Props.C78_exact"
   ],
   "note": "False for SMC-Dv2 Accept and Confirm messages of more than 114 bytes, whose first contact extension is not decoded. Proved for all other complete messages; the text of a long one is right exactly if the extension says nothing."
  },
  {
   "property": "C79",
   "status": "partial",
   "theorems": [
    "SMC.Props.C79_reserved_partial",
    "SMC.Props.C79_reserved_false",
    "SMC.Props.C79_exact"
   ],
   "note": "False for SMC-Dv2 Accept and Confirm messages of more than 114 bytes, whose first contact extension is not decoded. Proved for all other complete messages; the text of a long one is right exactly if the extension says nothing."
  },
  {
   "property": "C80",
   "status": "proved",
   "theorems": [
    "SMC.Props.C80_parse_log",
    "SMC.Props.C80_new_log"
   ],
   "note": ""
  },
  {
   "property": "C81",
   "status": "proved",
   "theorems": [
    "SMC.Props.C81_lossless",
    "SMC.Props.C81_fits",
    "SMC.Props.C81_roundtrip"
   ],
   "note": ""
  },
  {
   "property": "C82",
   "status": "proved",
   "theorems": [
    "SMC.Props.C82_recognised",
    "SMC.Props.C82_stream"
   ],
   "note": ""
  },
  {
   "property": "C83",
   "status": "partial",
   "theorems": [
    "SMC.Props.C83_spare_partial",
    "SMC.Props.C83_spare_false",
    "SMC.Props.C83_fields_partial",
    "SMC.Props.C83_fields_v1_false",
    "SMC.Props.C83_fields_v2_false",
    "SMC.Props.C83_exact"
   ],
   "note": "False of every kind: the error report dumps the declared bytes from the spare capacity, and truncated Proposals take fields from there. Proved whenever parsing succeeds without any spare capacity (C83_spare_partial), and for the fields of all kinds but Proposals. C83_exact: true of exactly the buffers on which Parse succeeds without any spare capacity or panics with all."
  },
  {
   "property": "C84",
   "status": "proved",
   "theorems": [
    "SMC.Props.C84_library",
    "SMC.Props.C84_llc",
    "SMC.Props.C84_roce",
    "SMC.Props.C84_clc",
    "SMC.Props.C84_length"
   ],
   "note": ""
  },
  {
   "property": "C85",
   "status": "partial",
   "theorems": [
    "SMC.Props.C85_nil_partial",
    "SMC.Props.C85_nil_false",
    "SMC.Props.C85_texts",
    "SMC.Props.C85_panics_iff",
    "SMC.Props.C85_dump_parse"
   ],
   "note": "False of nil Confirm messages, whose methods are promoted from an embedded struct: they panic (C85_nil_false, C85_panics_iff). Proved for all other kinds and for all pointers that are not nil."
  },
  {
   "property": "C86",
   "status": "proved",
   "theorems": [
    "SMC.Props.C86_race_free",
    "SMC.Props.C86_writes",
    "SMC.Props.C86_reads"
   ],
   "note": ""
  },
  {
   "property": "C87",
   "status": "partial",
   "theorems": [
    "SMC.Props.C87_llc",
    "SMC.Props.C87_bth",
    "SMC.Props.C87_grh",
    "SMC.Props.C87_clc",
    "SMC.Props.C87_clc_partial",
    "SMC.Props.C87_false",
    "SMC.Props.C87_clc_log",
    "SMC.Props.C87_silent"
   ],
   "note": "False of Proposal v2 and SMC-Dv2 Accept and Confirm messages, which show EIDs and host names as they are (C87_false: a peer forges a line). The exact condition is proved for every message (C87_clc); the rest is proved in full."
  },
  {
   "property": "C88",
   "status": "proved",
   "theorems": [
    "SMC.Props.C88_kinds",
    "SMC.Props.C88_headers",
    "SMC.Props.C88_packet"
   ],
   "note": ""
  },
  {
   "property": "C89",
   "status": "proved",
   "theorems": [
    "SMC.Props.C89_texts",
    "SMC.Props.C89_header"
   ],
   "note": ""
  },
  {
   "property": "C90",
   "status": "partial",
   "theorems": [
    "SMC.Props.C90_reserved_partial",
    "SMC.Props.C90_bytes_partial",
    "SMC.Props.C90_bytes_noEIDs",
    "SMC.Props.C90_eid_false",
    "SMC.Props.C90_padding_false",
    "SMC.Props.C90_exact",
    "SMC.Props.C90_smcdv2_exact",
    "SMC.Props.C90_smcdv2_bytes"
   ],
   "note": "False of EIDs and host names that contain commas or bytes after their text (C90_eid_false, C90_padding_false): the texts of two different messages are the same. Proved for all other messages (C90_reserved_partial, C90_bytes_partial), and without conditions for the kinds that have no EIDs (C90_bytes_noEIDs); commas in SMC-Dv2 messages do no harm (C90_smcdv2_bytes). C90_exact says for all messages exactly when texts are the same."
  },
  {
   "property": "C91",
   "status": "partial",
   "theorems": [
    "SMC.Props.C91_grh_lossless",
    "SMC.Props.C91_grh_roundtrip",
    "SMC.Props.C91_v2_parts",
    "SMC.Props.C91_v1_parts",
    "SMC.Props.C91_v2_lossless",
    "SMC.Props.C91_v1_lossless",
    "SMC.Props.C91_message_partial",
    "SMC.Props.C91_message_false"
   ],
   "note": "False of payload that is a Confirm RKey Continuation message, on which the parsers panic (C91_message_false). Proved in full for all other messages (C91_message_partial) and for any payload relative to ParseLLC (C91_v1_parts, C91_v2_parts); lossless for every packet that parses."
  },
  {
   "property": "C92",
   "status": "proved",
   "theorems": [
    "SMC.Props.C92_grh_text",
    "SMC.Props.C92_grh_bytes"
   ],
   "note": ""
  },
  {
   "property": "C93",
   "status": "proved",
   "theorems": [
    "SMC.Props.C93_llc",
    "SMC.Props.C93_roce",
    "SMC.Props.C93_clc"
   ],
   "note": "Byte slices only; structs, logs and texts are not counted."
  },
  {
   "property": "C94",
   "status": "proved",
   "theorems": [
    "SMC.Props.C94_parse",
    "SMC.Props.C94_fixed",
    "SMC.Props.C94_new"
   ],
   "note": ""
  },
  {
   "property": "C95",
   "status": "proved",
   "theorems": [
    "SMC.Props.C95_llc",
    "SMC.Props.C95_bth",
    "SMC.Props.C95_grh",
    "SMC.Props.C95_clc",
    "SMC.Props.C95_clc_again"
   ],
   "note": ""
  },
  {
   "property": "C96",
   "status": "partial",
   "theorems": [
    "SMC.Props.C96_agree_llc",
    "SMC.Props.C96_agree_clc",
    "SMC.Props.C96_number_false",
    "SMC.Props.C96_address_false",
    "SMC.Props.C96_confirmLink_partial",
    "SMC.Props.C96_addLink_partial",
    "SMC.Props.C96_addLinkCont_partial",
    "SMC.Props.C96_deleteLink_partial",
    "SMC.Props.C96_confirmRKey_partial",
    "SMC.Props.C96_confirmRKeyCont_partial",
    "SMC.Props.C96_deleteRKey_partial",
    "SMC.Props.C96_testLink_partial",
    "SMC.Props.C96_cdc_partial",
    "SMC.Props.C96_bth_partial",
    "SMC.Props.C96_decline_partial",
    "SMC.Props.C96_declineV2_partial",
    "SMC.Props.C96_acceptSMCR_partial",
    "SMC.Props.C96_acceptSMCD_partial",
    "SMC.Props.C96_acceptSMCDv2_partial",
    "SMC.Props.C96_proposal_partial",
    "SMC.Props.C96_proposalV2_partial",
    "SMC.Props.C96_confirmLink_iff",
    "SMC.Props.C96_addLink_iff",
    "SMC.Props.C96_bth_iff",
    "SMC.Props.C96_acceptSMCR_iff",
    "SMC.Props.C96_addLinkCont_iff",
    "SMC.Props.C96_confirmRKey_iff",
    "SMC.Props.C96_confirmRKeyCont_iff",
    "SMC.Props.C96_deleteRKey_iff",
    "SMC.Props.C96_confirmLink_values_partial",
    "SMC.Props.C96_addLink_values_partial",
    "SMC.Props.C96_addLinkCont_values_partial",
    "SMC.Props.C96_deleteLink_values",
    "SMC.Props.C96_confirmRKey_values_partial",
    "SMC.Props.C96_confirmRKeyCont_values_partial",
    "SMC.Props.C96_deleteRKey_values_partial",
    "SMC.Props.C96_testLink_values",
    "SMC.Props.C96_cdc_values",
    "SMC.Props.C96_bth_values_partial",
    "SMC.Props.C96_decline_values",
    "SMC.Props.C96_declineV2_values_partial",
    "SMC.Props.C96_acceptSMCR_values_partial",
    "SMC.Props.C96_acceptSMCD_values",
    "SMC.Props.C96_acceptSMCDv2_values",
    "SMC.Props.C96_proposal_values_partial",
    "SMC.Props.C96_proposalV2_values_partial",
    "SMC.Props.C96_confirmLink_exact",
    "SMC.Props.C96_addLink_exact",
    "SMC.Props.C96_deleteLink_exact",
    "SMC.Props.C96_testLink_exact",
    "SMC.Props.C96_cdc_exact",
    "SMC.Props.C96_bth_exact",
    "SMC.Props.C96_decline_exact",
    "SMC.Props.C96_declineV2_exact",
    "SMC.Props.C96_acceptSMCR_exact",
    "SMC.Props.C96_acceptSMCD_exact",
    "SMC.Props.C96_addLinkCont_exact",
    "SMC.Props.C96_confirmRKey_exact",
    "SMC.Props.C96_confirmRKeyCont_exact",
    "SMC.Props.C96_deleteRKey_exact"
   ],
   "note": "False of the code: C96_number_false, C96_address_false. Proved: at most one field is neither old nor new, and its values are listed; six kinds of message have no such field. For fourteen kinds the number of bytes decides every field (C96_*_exact), and C96_*_iff say for which numbers of bytes the statement holds."
  },
  {
   "property": "C97",
   "status": "proved",
   "theorems": [
    "SMC.Props.C97_alone",
    "SMC.Props.C97_wait_free",
    "SMC.Props.C97_finishes",
    "SMC.Props.C97_there",
    "SMC.Props.C97_shared",
    "SMC.Props.C97_footprint",
    "SMC.Props.C97_no_race",
    "SMC.Props.C97_llc",
    "SMC.Props.C97_rocev1",
    "SMC.Props.C97_rocev2",
    "SMC.Props.C97_clc",
    "SMC.Props.C97_torn"
   ],
   "note": ""
  },
  {
   "property": "C98",
   "status": "proved",
   "theorems": [
    "SMC.Props.C98_llc",
    "SMC.Props.C98_v2",
    "SMC.Props.C98_v1",
    "SMC.Props.C98_clc",
    "SMC.Props.C98_report"
   ],
   "note": ""
  },
  {
   "property": "C99",
   "status": "proved",
   "theorems": [
    "SMC.Props.C99_one_topic",
    "SMC.Props.C99_llc",
    "SMC.Props.C99_llc_kinds",
    "SMC.Props.C99_llc_fields",
    "SMC.Props.C99_roce",
    "SMC.Props.C99_header",
    "SMC.Props.C99_clc",
    "SMC.Props.C99_clc_kinds",
    "SMC.Props.C99_clc_fields"
   ],
   "note": ""
  },
  {
   "property": "C100",
   "status": "proved",
   "theorems": [
    "SMC.Props.C100_lines",
    "SMC.Props.C100_unique",
    "SMC.Props.C100_kinds",
    "SMC.Props.C100_clc"
   ],
   "note": ""
  },
  {
   "property": "C101",
   "status": "partial",
   "theorems": [
    "SMC.Props.C101_exact",
    "SMC.Props.C101_partial",
    "SMC.Props.C101_one_socket",
    "SMC.Props.C101_false",
    "SMC.Props.C101_steals"
   ],
   "note": "False: the finalizer of the file of an earlier call closes the socket a call is working on, somebody else gets the number, and the call goes on with it, returns a connection made of it and closes it. Proved: it holds as long as every finalizer finds its number not in use, an open socket of a call is always the one it works on, and it holds exactly when no finalizer that runs finds the socket of a call under its number."
  },
  {
   "property": "C102",
   "status": "partial",
   "theorems": [
    "SMC.Props.C102_exact",
    "SMC.Props.C102_finalizers",
    "SMC.Props.C102_partial",
    "SMC.Props.C102_closers",
    "SMC.Props.C102_false"
   ],
   "note": "False: the finalizer of the file of an earlier call closes the connection if it got the number. Proved: it holds as long as every finalizer finds its number not in use, what can close a connection otherwise, and that it stays open exactly when neither a finalizer nor a call closes its number."
  },
  {
   "property": "C103",
   "status": "proved",
   "theorems": [
    "SMC.Props.C103_unnoticed",
    "SMC.Props.C103_panics",
    "SMC.Props.C103_unchanged",
    "SMC.Props.C103_lock"
   ],
   "note": ""
  },
  {
   "property": "C104",
   "status": "partial",
   "theorems": [
    "SMC.Props.C104_read",
    "SMC.Props.C104_entries",
    "SMC.Props.C104_llc",
    "SMC.Props.C104_roce",
    "SMC.Props.C104_clc_partial",
    "SMC.Props.C104_false",
    "SMC.Props.C104_page",
    "SMC.Props.C104_exact"
   ],
   "note": "False of CLC messages: an EID with a line feed can look like a dump. Proved for texts and dumps in general, for LLC and CDC messages, for packets, for CLC messages exactly when no line of their texts looks like a line of a dump (which holds if the names are printable), and for the responses of the server."
  },
  {
   "property": "C105",
   "status": "partial",
   "theorems": [
    "SMC.Props.C105_alone",
    "SMC.Props.C105_once",
    "SMC.Props.C105_exit",
    "SMC.Props.C105_false",
    "SMC.Props.C105_race",
    "SMC.Props.C105_partial",
    "SMC.Props.C105_exact"
   ],
   "note": "False: of two overlapping calls the one that returns can return a server with the listener of the other one, which nobody serves. Proved: at most one call returns and the others panic; the listener is the one served exactly when no other call sets one in between; the calls race for it."
  },
  {
   "property": "C106",
   "status": "proved",
   "theorems": [
    "SMC.Props.C106_ip4",
    "SMC.Props.C106_texts",
    "SMC.Props.C106_ports",
    "SMC.Props.C106_port",
    "SMC.Props.C106_literal",
    "SMC.Props.C106_again",
    "SMC.Props.C106_mapped"
   ],
   "note": ""
  },
  {
   "property": "C107",
   "status": "partial",
   "theorems": [
    "SMC.Props.C107_initial",
    "SMC.Props.C107_current",
    "SMC.Props.C107_false",
    "SMC.Props.C107_shared",
    "SMC.Props.C107_apart",
    "SMC.Props.C107_partial",
    "SMC.Props.C107_smcd_partial",
    "SMC.Props.C107_statements",
    "SMC.Props.C107_reslice",
    "SMC.Props.C107_others",
    "SMC.Props.C107_exact"
   ],
   "note": "False: SMCOption is the same slice as SMCREyecatcher, so a write to its bytes changes which messages and trailers are recognised. Proved: exactly which statements on SMCOption change the recognition (C107_exact); the two variables stay the same until one of them is assigned; options with an array of their own and changes of SMCDEyecatcher do not affect the others."
  },
  {
   "property": "C108",
   "status": "proved",
   "theorems": [
    "SMC.Props.C108_clean",
    "SMC.Props.C108_served",
    "SMC.Props.C108_follow",
    "SMC.Props.C108_paths",
    "SMC.Props.C108_escaping",
    "SMC.Props.C108_decoded",
    "SMC.Props.C108_hash"
   ],
   "note": ""
  },
  {
   "property": "C109",
   "status": "partial",
   "theorems": [
    "SMC.Props.C109_type",
    "SMC.Props.C109_items",
    "SMC.Props.C109_partial",
    "SMC.Props.C109_false",
    "SMC.Props.C109_server_partial",
    "SMC.Props.C109_active",
    "SMC.Props.C109_html"
   ],
   "note": "False: EIDs and host names are shown as they are, so a message with a control character in one of them makes the page application/octet-stream. Proved: the type is decided by control characters only (C109_type), pages whose items are lines of printable characters are plain text, also in every interleaving, and only pages that begin with < can be HTML or XML."
  },
  {
   "property": "C110",
   "status": "proved",
   "theorems": [
    "SMC.Props.C110_bth",
    "SMC.Props.C110_grh",
    "SMC.Props.C110_packets"
   ],
   "note": ""
  },
  {
   "property": "C111",
   "status": "partial",
   "theorems": [
    "SMC.Props.C111_body",
    "SMC.Props.C111_framing",
    "SMC.Props.C111_head",
    "SMC.Props.C111_head_length",
    "SMC.Props.C111_false",
    "SMC.Props.C111_partial",
    "SMC.Props.C111_exact"
   ],
   "note": "False: a HEAD request with flush=true empties the buffer, and the page is not sent. Proved: with every other method the client reads exactly the page, whatever its length and the protocol version, how each page is delimited, and that it holds of a request exactly if the method is not HEAD, or the page is not flushed, or it is empty."
  },
  {
   "property": "C112",
   "status": "proved",
   "theorems": [
    "SMC.Props.C112_linearizable",
    "SMC.Props.C112_mixed",
    "SMC.Props.C112_kept",
    "SMC.Props.C112_memory",
    "SMC.Props.C112_private",
    "SMC.Props.C112_torn"
   ],
   "note": ""
  },
  {
   "property": "C113",
   "status": "proved",
   "theorems": [
    "SMC.Props.C113_executions",
    "SMC.Props.C113_memory",
    "SMC.Props.C113_counted"
   ],
   "note": ""
  },
  {
   "property": "C114",
   "status": "proved",
   "theorems": [
    "SMC.Props.C114_collected",
    "SMC.Props.C114_exact",
    "SMC.Props.C114_calm"
   ],
   "note": ""
  },
  {
   "property": "C115",
   "status": "proved",
   "theorems": [
    "SMC.Props.C115_page",
    "SMC.Props.C115_counted",
    "SMC.Props.C115_fresh",
    "SMC.Props.C115_order",
    "SMC.Props.C115_grows",
    "SMC.Props.C115_flushed"
   ],
   "note": ""
  },
  {
   "property": "C116",
   "status": "proved",
   "theorems": [
    "SMC.Props.C116_no_deadlock",
    "SMC.Props.C116_bounded",
    "SMC.Props.C116_completes",
    "SMC.Props.C116_slow_clients",
    "SMC.Props.C116_jobs",
    "SMC.Props.C116_answered"
   ],
   "note": ""
  },
  {
   "property": "C117",
   "status": "partial",
   "theorems": [
    "SMC.Props.C117_clipped",
    "SMC.Props.C117_segments_partial",
    "SMC.Props.C117_exact",
    "SMC.Props.C117_false",
    "SMC.Props.C117_stream"
   ],
   "note": "False if Parse is given buf[:l]: C117_false cuts one stream in two ways, one of them panics. Holds for buf[:l:l] and every stream (C117_clipped), and for buf[:l] exactly for the streams that are PlainStream (C117_segments_partial, C117_exact), among them all encoded messages (C117_stream)."
  },
  {
   "property": "C118",
   "status": "partial",
   "theorems": [
    "SMC.Props.C118_left",
    "SMC.Props.C118_target",
    "SMC.Props.C118_exact",
    "SMC.Props.C118_false",
    "SMC.Props.C118_partial",
    "SMC.Props.C118_types_partial",
    "SMC.Props.C118_careful_partial"
   ],
   "note": "False of Proposals of both versions: append has room for a fourth prefix, and two copies of a message with three both use it (C118_false). Proved: programs with other messages only (C118_types_partial), exactly when Parse changes another message (C118_exact), that it does not if the message had no prefixes, gets none, or has as many as the other one (C118_partial), and never in programs that clear before they parse (C118_careful_partial)."
  }
 ]
}