{"id": "C01", "title": "ParseLLC never panics", "statement": "For every byte slice, llc.ParseLLC(buffer) returns a message; no input taken from the network can crash the process.", "quantifier": "every byte string of every length (and every spare capacity of the slice)", "why_tests_cant": "There are 2^352 buffers of 44 bytes alone; the tests call the typed parsers directly on one literal each and never reach ParseLLC.", "anchors": ["pkg/llc/llc.go:ParseLLC", "pkg/llc/llc_confirmrkeycont.go:ConfirmRKeyCont.Parse"]}
{"id": "C02", "title": "ParseLLC dispatch is decided by length and first byte", "statement": "ParseLLC returns a ConfirmLink/AddLink/AddLinkCont/DeleteLink/ConfirmRKey/ConfirmRKeyCont/DeleteRKey/TestLink/CDC message exactly when the buffer is 44 bytes long and its first byte is 1/2/3/4/6/8/9/7/0xFE, and an Other message in every other case.", "quantifier": "every byte string of every length (and every spare capacity of the slice)", "why_tests_cant": "A test can show one buffer per type; it cannot show that no other length or first byte is taken for a typed message.", "anchors": ["pkg/llc/llc.go:ParseLLC"]}
{"id": "C03", "title": "Other messages keep the whole payload", "statement": "For every buffer that is not a typed LLC message the returned message has GetType() = 0x101, a Length equal to the buffer length, and a Hex() dump of exactly the buffer bytes.", "quantifier": "every byte string that is not a 44 byte message of a known type", "why_tests_cant": "infinitely many payloads of all lengths.", "anchors": ["pkg/llc/other.go:Other.Parse", "pkg/llc/llc.go:ParseLLC", "pkg/llc/base.go:BaseMsg.setRaw"]}
{"id": "C04", "title": "ConfirmLink fields are the wire bits", "statement": "After parsing any 44 byte ConfirmLink message every decoded field equals the unsigned big-endian number (or flag, or byte string) in the bit range the wire format assigns to it, whatever the other bits are.", "quantifier": "every 44 byte message of that type", "why_tests_cant": "each field is a function of 352 input bits; the tests check one literal, mostly with all-zero fields.", "anchors": ["pkg/llc/llc_confirmlink.go", "pkg/llc/base.go:BaseMsg.SetBaseMsg"]}
{"id": "C05", "title": "AddLink fields are the wire bits", "statement": "After parsing any 44 byte AddLink message every decoded field equals the unsigned big-endian number (or flag, or byte string) in the bit range the wire format assigns to it, whatever the other bits are.", "quantifier": "every 44 byte message of that type", "why_tests_cant": "each field is a function of 352 input bits; the tests check one literal, mostly with all-zero fields.", "anchors": ["pkg/llc/llc_addlink.go", "pkg/llc/base.go:BaseMsg.SetBaseMsg"]}
{"id": "C06", "title": "AddLinkCont fields are the wire bits", "statement": "After parsing any 44 byte AddLinkCont message every decoded field equals the unsigned big-endian number (or flag, or byte string) in the bit range the wire format assigns to it, whatever the other bits are.", "quantifier": "every 44 byte message of that type", "why_tests_cant": "each field is a function of 352 input bits; the tests check one literal, mostly with all-zero fields.", "anchors": ["pkg/llc/llc_addlinkcont.go", "pkg/llc/base.go:BaseMsg.SetBaseMsg"]}
{"id": "C07", "title": "DeleteLink fields are the wire bits", "statement": "After parsing any 44 byte DeleteLink message every decoded field equals the unsigned big-endian number (or flag, or byte string) in the bit range the wire format assigns to it, whatever the other bits are.", "quantifier": "every 44 byte message of that type", "why_tests_cant": "each field is a function of 352 input bits; the tests check one literal, mostly with all-zero fields.", "anchors": ["pkg/llc/llc_deletelink.go", "pkg/llc/base.go:BaseMsg.SetBaseMsg"]}
{"id": "C08", "title": "ConfirmRKey fields are the wire bits", "statement": "After parsing any 44 byte ConfirmRKey message every decoded field equals the unsigned big-endian number (or flag, or byte string) in the bit range the wire format assigns to it, whatever the other bits are.", "quantifier": "every 44 byte message of that type", "why_tests_cant": "each field is a function of 352 input bits; the tests check one literal, mostly with all-zero fields.", "anchors": ["pkg/llc/llc_confirmrkey.go", "pkg/llc/base.go:BaseMsg.SetBaseMsg"]}
{"id": "C09", "title": "ConfirmRKeyCont fields are the wire bits", "statement": "After parsing any 44 byte ConfirmRKeyCont message every decoded field equals the unsigned big-endian number (or flag, or byte string) in the bit range the wire format assigns to it, whatever the other bits are.", "quantifier": "every 44 byte message of that type", "why_tests_cant": "each field is a function of 352 input bits; the tests check one literal, mostly with all-zero fields.", "anchors": ["pkg/llc/llc_confirmrkeycont.go", "pkg/llc/base.go:BaseMsg.SetBaseMsg"]}
{"id": "C10", "title": "DeleteRKey fields are the wire bits", "statement": "After parsing any 44 byte DeleteRKey message every decoded field equals the unsigned big-endian number (or flag, or byte string) in the bit range the wire format assigns to it, whatever the other bits are.", "quantifier": "every 44 byte message of that type", "why_tests_cant": "each field is a function of 352 input bits; the tests check one literal, mostly with all-zero fields.", "anchors": ["pkg/llc/llc_deleterkey.go", "pkg/llc/base.go:BaseMsg.SetBaseMsg"]}
{"id": "C11", "title": "TestLink fields are the wire bits", "statement": "After parsing any 44 byte TestLink message every decoded field equals the unsigned big-endian number (or flag, or byte string) in the bit range the wire format assigns to it, whatever the other bits are.", "quantifier": "every 44 byte message of that type", "why_tests_cant": "each field is a function of 352 input bits; the tests check one literal, mostly with all-zero fields.", "anchors": ["pkg/llc/llc_testlink.go", "pkg/llc/base.go:BaseMsg.SetBaseMsg"]}
{"id": "C12", "title": "CDC fields are the wire bits", "statement": "After parsing any 44 byte CDC message every decoded field equals the unsigned big-endian number (or flag, or byte string) in the bit range the wire format assigns to it, whatever the other bits are.", "quantifier": "every 44 byte message of that type", "why_tests_cant": "each field is a function of 352 input bits; the tests check one literal, mostly with all-zero fields.", "anchors": ["pkg/llc/cdc.go", "pkg/llc/base.go:BaseMsg.SetBaseMsg"]}
{"id": "C13", "title": "LLC and CDC decoding is lossless and invertible", "statement": "Writing the decoded fields (reserved ones included) back in wire order reproduces the 44 byte message bit for bit, and decoding the encoding of any field values returns those values.", "quantifier": "every 44 byte message of every type; every tuple of in-range field values", "why_tests_cant": "a dropped, duplicated or overlapping bit shows only on messages that set it.", "anchors": ["pkg/llc/llc.go", "pkg/llc/cdc.go"]}
{"id": "C14", "title": "Typed LLC parsers accept exactly the buffers that hold their fields", "statement": "Each exported typed parser (ParseConfirm, ParseAddLink, ParseAddLinkCont, ParseDeleteLink, ParseConfirmRKey, ParseConfirmRKeyCont, ParseTestLink, ParseCDC) panics exactly when the slice is shorter than the bytes it decodes, independently of the contents and the capacity of the slice.", "quantifier": "every byte string of every length (and every spare capacity of the slice)", "why_tests_cant": "ranges over all lengths, contents and capacities.", "anchors": ["pkg/llc/llc_*.go", "pkg/llc/cdc.go"]}
{"id": "C15", "title": "GetType and Length come from the first two bytes", "statement": "For every typed LLC/CDC message GetType() is the first byte and Length the second byte of the buffer; the type stored always agrees with the Go type ParseLLC returned.", "quantifier": "every 44 byte message", "why_tests_cant": "all 2^16 header values times all bodies.", "anchors": ["pkg/llc/base.go", "pkg/llc/cdc.go:CDC.Parse"]}
{"id": "C16", "title": "Hex dumps lose nothing", "statement": "The Hex()/Dump() output determines the raw bytes: two messages with the same dump have the same bytes, and the bytes can be read back from the dump.", "quantifier": "every byte string of every length", "why_tests_cant": "injectivity is a statement about all pairs of inputs.", "anchors": ["pkg/llc/base.go:BaseMsg.Hex", "pkg/clc/raw.go:Raw.Dump", "pkg/roce/bth.go:BTH.Hex"]}
{"id": "C17", "title": "LLC messages own their bytes", "statement": "Once ParseLLC has returned, writing to the caller's buffer (packet buffers get reused) changes neither Hex() nor any decoded field of the message.", "quantifier": "every buffer and every later sequence of writes to memory that existed before the call", "why_tests_cant": "aliasing shows only under particular later writes.", "anchors": ["pkg/llc/base.go:BaseMsg.setRaw"]}
{"id": "C18", "title": "Re-parsing into a used LLC message equals a fresh parse", "statement": "Calling Parse on an already used message value gives the same message as parsing into a zero value: nothing of the previous message survives.", "quantifier": "every previous message value and every 44 byte buffer", "why_tests_cant": "ranges over all prior states of the receiver.", "anchors": ["pkg/llc/*.go:Parse"]}
{"id": "C19", "title": "String() of LLC/CDC messages ignores reserved bits", "statement": "Two messages that differ only in reserved fields (or raw bytes) have the same String().", "quantifier": "all pairs of messages that agree on the non-reserved fields", "why_tests_cant": "non-interference is a property of pairs of messages.", "anchors": ["pkg/llc/*.go:String"]}
{"id": "C20", "title": "String() of LLC/CDC messages shows every non-reserved field", "statement": "Two messages of one type with the same String() agree on every non-reserved field.", "quantifier": "all pairs of messages of one type", "why_tests_cant": "injectivity over all pairs.", "anchors": ["pkg/llc/*.go:String"]}
{"id": "C21", "title": "Reserved() of LLC/CDC messages shows every field", "statement": "Two messages of one type with the same Reserved() agree on every field, reserved fields included.", "quantifier": "all pairs of messages of one type", "why_tests_cant": "injectivity over all pairs.", "anchors": ["pkg/llc/*.go:Reserved"]}
{"id": "C22", "title": "RoCE parsing cuts the packet without loss", "statement": "ParseRoCEv1 (ParseRoCEv2) splits every packet of at least 56 (16) bytes into GRH (v1 only), BTH, payload and ICRC that concatenate to the packet, hands exactly the payload to ParseLLC, and panics exactly on shorter packets or when ParseLLC does.", "quantifier": "every byte string of every length (and every spare capacity of the slice)", "why_tests_cant": "all lengths and contents.", "anchors": ["pkg/roce/roce.go:ParseRoCEv1", "pkg/roce/roce.go:ParseRoCEv2"]}
{"id": "C23", "title": "BTH fields are the wire bits", "statement": "Every field of a parsed base transport header equals the bits at its position in the 12 byte header.", "quantifier": "every 12 byte header", "why_tests_cant": "2^96 headers; the test checks one.", "anchors": ["pkg/roce/bth.go:BTH.Parse"]}
{"id": "C24", "title": "BTH decoding is lossless", "statement": "Writing the decoded BTH fields back in wire order reproduces the 12 bytes, and decoding the encoding of any in-range field values returns them.", "quantifier": "every 12 byte header; every tuple of in-range field values", "why_tests_cant": "a dropped bit shows only on headers that set it.", "anchors": ["pkg/roce/bth.go:BTH.Parse"]}
{"id": "C25", "title": "Opcode names follow the transport class", "statement": "The opcode text names the transport class given by the top three bits, the operation given by the low five, 'Reserved' for codes outside that class's table, and never reads outside a table; distinct opcodes have distinct texts.", "quantifier": "all 256 opcodes and all pairs of them", "why_tests_cant": "the test checks one opcode.", "anchors": ["pkg/roce/bth.go:Opcode.String"]}
{"id": "C26", "title": "GRH fields are the IPv6 header bits", "statement": "For every header of at least 40 bytes the GRH shows the IPv6 header fields, and the next header is printed as 'BTH' exactly when it is 0x1B.", "quantifier": "every byte string", "why_tests_cant": "all header values.", "anchors": ["pkg/roce/grh.go:GRH.Parse", "pkg/roce/grh.go:GRH.String"]}
{"id": "C27", "title": "RoCEv1 and RoCEv2 agree below the GRH", "statement": "Parsing GRH ++ p as RoCEv1 and p as RoCEv2 give the same BTH, payload message and ICRC, and one panics exactly when the other does.", "quantifier": "every 40 byte GRH and every packet p", "why_tests_cant": "relates two functions on all inputs.", "anchors": ["pkg/roce/roce.go"]}
{"id": "C28", "title": "HasEyecatcher is exact", "statement": "HasEyecatcher is true exactly for slices that start with E2 D4 C3 D9 or E2 D4 C3 C4, and panics exactly when fewer than four bytes are within the slice's capacity.", "quantifier": "every byte string of every length (and every spare capacity of the slice)", "why_tests_cant": "all byte strings.", "anchors": ["pkg/clc/eyecatcher.go:HasEyecatcher"]}
{"id": "C29", "title": "NewMessage classifies by eyecatcher, length, type, version and path", "statement": "NewMessage returns exactly the message kind the header's type, version and path select (v2 kinds only for version 2, SMC-R/SMC-D accept and confirm by path) and nil for everything else: bad eyecatcher, length over 1024, unknown type, accept/confirm with path N or B.", "quantifier": "every byte string of every length (and every spare capacity of the slice)", "why_tests_cant": "the product of all header values with all bodies.", "anchors": ["pkg/clc/message.go:NewMessage"]}
{"id": "C30", "title": "NewMessage returns the declared length and never more than 1024", "statement": "Whenever NewMessage returns a message the returned length is bytes 5..6 of the header and at most 1024; whenever it returns nil the length is 0.", "quantifier": "every byte string of every length (and every spare capacity of the slice)", "why_tests_cant": "all headers.", "anchors": ["pkg/clc/message.go:NewMessage"]}
{"id": "C31", "title": "NewMessage needs eight bytes and nothing more", "statement": "NewMessage never panics on a slice of at least eight bytes and never looks at more than the first eight.", "quantifier": "every byte string of every length (and every spare capacity of the slice)", "why_tests_cant": "all buffers and all pairs of buffers with a common header.", "anchors": ["pkg/clc/message.go:NewMessage"]}
{"id": "C32", "title": "CLC header fields are the wire bits", "statement": "Header.Parse decodes eyecatcher, type, length, version, flag, reserved bit, v2 path and path from the bits at their positions, panics exactly on fewer than eight bytes, and keeps all 64 bits.", "quantifier": "every byte string", "why_tests_cant": "2^64 headers.", "anchors": ["pkg/clc/header.go:Header.Parse"]}
{"id": "C33", "title": "Complete CLC messages never crash the parser", "statement": "If NewMessage(buf) returned a message and its length, and buf holds at least that many bytes, then msg.Parse(buf) does not panic.", "quantifier": "every buffer that NewMessage accepts and that is at least as long as its declared length", "why_tests_cant": "a remote peer chooses all counts, offsets and lengths inside the message.", "anchors": ["pkg/clc/clc_*.go:Parse", "pkg/clc/message.go:NewMessage"]}
{"id": "C34", "title": "Decline fields are the wire bits", "statement": "After parsing any complete Decline (v1 or v2) every field equals the bits at its wire position; in v2 the OS type is the top four bits of the first reserved byte and is removed from the reserved bytes.", "quantifier": "every complete decline message", "why_tests_cant": "all messages.", "anchors": ["pkg/clc/clc_decline.go", "pkg/clc/clc_decline_v2.go"]}
{"id": "C35", "title": "SMC-R Accept/Confirm fields are the wire bits", "statement": "After parsing any complete SMC-R accept or confirm every field equals the bits at its wire position.", "quantifier": "every complete message", "why_tests_cant": "all messages.", "anchors": ["pkg/clc/clc_accept_smcr.go", "pkg/clc/clc_confirm_smcr.go"]}
{"id": "C36", "title": "SMC-D Accept/Confirm fields are the wire bits", "statement": "After parsing any complete SMC-D v1 accept or confirm every field equals the bits at its wire position.", "quantifier": "every complete message", "why_tests_cant": "all messages.", "anchors": ["pkg/clc/clc_accept_smcd.go", "pkg/clc/clc_confirm_smcd.go"]}
{"id": "C37", "title": "SMC-Dv2 Accept/Confirm fields are the wire bits", "statement": "After parsing any complete SMC-Dv2 accept or confirm every field equals the bits at its wire position; the first contact extension is decoded exactly when the declared length is 114.", "quantifier": "every complete message", "why_tests_cant": "all messages.", "anchors": ["pkg/clc/clc_accept_smcd_v2.go", "pkg/clc/clc_confirm_smcd_v2.go"]}
{"id": "C38", "title": "Proposal fields are the wire bits, the IP area being at its offset", "statement": "After parsing any complete Proposal whose IP area lies inside the message, the fixed fields equal the bits at their positions and the IPv4 prefix, its length, and the IPv6 prefix count are read at 40 + IPAreaOffset; SMC-D info is decoded exactly when the offset is 40.", "quantifier": "every complete proposal, every IP area offset", "why_tests_cant": "the position depends on data.", "anchors": ["pkg/clc/clc_proposal.go:Proposal.Parse"]}
{"id": "C39", "title": "ProposalV2 fields are the wire bits, areas following one another", "statement": "After parsing any complete ProposalV2 the fixed fields equal the bits at their positions, the IP area is decoded exactly if path is not N, the v2 extension exactly if v2 path is not N and the SMC-D extension exactly if v2 path is D or B, each directly after the previous one.", "quantifier": "every complete v2 proposal", "why_tests_cant": "positions depend on data.", "anchors": ["pkg/clc/clc_proposal_v2.go:ProposalV2.Parse"]}
{"id": "C40", "title": "Messages declared too short are rejected without touching fields", "statement": "If the declared length is below the minimum of the message kind, Parse sets only the raw bytes and the header, logs an error and leaves every other field as it was.", "quantifier": "every such buffer and receiver", "why_tests_cant": "all lengths below the minimum.", "anchors": ["pkg/clc/clc_*.go:Parse"]}
{"id": "C41", "title": "Exactly the IPv6 prefixes that fit are decoded", "statement": "The number of IPv6 prefixes decoded from a Proposal or ProposalV2 is the minimum of the announced count and the number that fit before the trailer; the i-th one is the 17 bytes at the i-th position; an error is logged exactly if fewer than announced were decoded.", "quantifier": "every complete proposal with every announced count", "why_tests_cant": "the announced count is attacker-chosen and the loop runs a data-dependent number of times.", "anchors": ["pkg/clc/clc_proposal.go:Proposal.Parse", "pkg/clc/clc_proposal_v2.go:ProposalV2.Parse"]}
{"id": "C42", "title": "Exactly the EIDs and GIDs that fit are decoded", "statement": "For EID and GID counts up to 8 the number of entries decoded is the minimum of the announced count and the number that fit before the trailer; further entries keep their previous value.", "quantifier": "every complete v2 proposal", "why_tests_cant": "data-dependent loops.", "anchors": ["pkg/clc/clc_proposal_v2.go:ProposalV2.Parse"]}
{"id": "C43", "title": "Decoded fields do not depend on bytes after the message", "statement": "Apart from Raw and Trailer, the fields decoded from a buffer depend only on the declared-length prefix: appending or changing bytes after the message changes nothing.", "quantifier": "every pair of buffers with the same message prefix", "why_tests_cant": "non-interference over pairs of buffers.", "anchors": ["pkg/clc/clc_*.go:Parse"]}
{"id": "C44", "title": "The trailer is the last four bytes of the message and is checked", "statement": "After a parse that was not rejected, Trailer is the last four bytes of the message, and 'invalid trailer' is logged exactly when they are no eyecatcher.", "quantifier": "every buffer, every declared length", "why_tests_cant": "all lengths and contents.", "anchors": ["pkg/clc/trailer.go:Trailer.Parse"]}
{"id": "C45", "title": "Truncated captures are rejected, not crashed on", "statement": "Parse does not panic when the buffer holds fewer bytes than the header declares (a truncated capture).", "quantifier": "every buffer of at least eight bytes", "why_tests_cant": "all truncation points.", "anchors": ["pkg/clc/clc_*.go:Parse"]}
{"id": "C46", "title": "Re-parsing into a used CLC message equals a fresh parse", "statement": "Calling Parse on a used message value with an accepted message gives the same result as parsing into a zero value.", "quantifier": "every previous message value and accepted buffer", "why_tests_cant": "ranges over all prior receiver states.", "anchors": ["pkg/clc/clc_*.go:Parse"]}
{"id": "C47", "title": "Confirm messages decode exactly like Accept messages", "statement": "ConfirmSMCR/ConfirmSMCD/ConfirmSMCDv2 decode to the same fields as the corresponding Accept on every buffer; only the logged error text depends on the header type.", "quantifier": "every buffer", "why_tests_cant": "relates functions on all inputs.", "anchors": ["pkg/clc/clc_confirm_smcr.go", "pkg/clc/clc_confirm_smcd.go", "pkg/clc/clc_confirm_smcd_v2.go"]}
{"id": "C48", "title": "Silence means success", "statement": "If Parse logs nothing then the message was complete: the declared length reaches the minimum, every announced entry was decoded, and the trailer is an eyecatcher.", "quantifier": "every complete buffer", "why_tests_cant": "all buffers.", "anchors": ["pkg/clc/clc_*.go:Parse"]}
{"id": "C49", "title": "String() of CLC messages ignores reserved fields", "statement": "Two CLC messages that differ only in reserved fields (or raw bytes) have the same String().", "quantifier": "all pairs of messages agreeing on non-reserved fields", "why_tests_cant": "non-interference over pairs.", "anchors": ["pkg/clc/*.go:String"]}
{"id": "C50", "title": "String() of CLC messages shows every non-reserved field", "statement": "Two CLC messages of one kind with the same String() agree on every decoded non-reserved field.", "quantifier": "all pairs of messages of one kind", "why_tests_cant": "injectivity over pairs.", "anchors": ["pkg/clc/*.go:String"]}
{"id": "C51", "title": "EID text is the EID up to the first NUL without trailing blanks", "statement": "EID.String() is the longest prefix of the 32 bytes that contains no NUL byte, with all trailing spaces and nothing else removed.", "quantifier": "all 2^256 EIDs", "why_tests_cant": "all values.", "anchors": ["pkg/clc/clc_proposal_v2.go:EID.String"]}
{"id": "C52", "title": "RMBE size text shows the uncompressed size", "statement": "For every RMBE/DMBE size that Parse can produce the text is 's (2^(s+14))'.", "quantifier": "every message", "why_tests_cant": "all messages, and the uint8 wrap-around outside that range.", "anchors": ["pkg/clc/rmbesize.go:RMBESize.String"]}
{"id": "C53", "title": "Decline diagnosis texts are exact and unambiguous", "statement": "Every diagnosis code prints its hexadecimal value and its own description; all other codes print 'Unknown'; distinct codes have distinct texts.", "quantifier": "all 2^32 codes", "why_tests_cant": "2^32 codes and pairs of them.", "anchors": ["pkg/clc/clc_decline.go:PeerDiagnosis.String"]}
{"id": "C54", "title": "CLC Dump() shows the buffer as it is now", "statement": "CLC messages keep a reference to the caller's buffer: Dump() after later writes shows the new bytes, while every decoded field and String() keep the parsed values.", "quantifier": "every buffer and every later sequence of writes", "why_tests_cant": "aliasing shows only under later writes.", "anchors": ["pkg/clc/raw.go:Raw.Parse"]}
{"id": "C55", "title": "CheckSMCOption finds exactly the SMC option", "statement": "CheckSMCOption is true exactly if some TCP option has type 254, length 6 and the SMC-R eyecatcher as data, at any position in the list.", "quantifier": "every list of TCP options", "why_tests_cant": "lists of any length.", "anchors": ["pkg/clc/tcp_option.go:CheckSMCOption"]}
{"id": "C56", "title": "SMCv2 extensions are read at their offsets", "statement": "A ProposalV2's v2 extension and SMC-D v2 extension are read at the positions given by SMCv2Offset and SMCDv2Off (and the IP area at IPAreaOffset).", "quantifier": "every complete v2 proposal", "why_tests_cant": "positions depend on data.", "anchors": ["pkg/clc/clc_proposal_v2.go:ProposalV2.Parse"]}
{"id": "C57", "title": "Texts show the first contact extension only if it was decoded", "statement": "AcceptSMCDv2.String() contains the OS type, release and host name exactly when Parse decoded them.", "quantifier": "every complete message", "why_tests_cant": "all lengths.", "anchors": ["pkg/clc/clc_accept_smcd_v2.go:fceString"]}
{"id": "C58", "title": "RoCE ICRC aliases the packet, everything else is owned", "statement": "After ParseRoCEv1/v2, later writes to the packet buffer can change only ICRC; BTH, GRH and payload message are unaffected.", "quantifier": "every packet and every later sequence of writes", "why_tests_cant": "aliasing.", "anchors": ["pkg/roce/roce.go"]}
{"id": "C60", "title": "Buffer operations are atomic", "statement": "In every interleaving of concurrent Write, CopyBuffer and Reset calls, every CopyBuffer returns the concatenation of the byte strings of the Writes that took effect since the last Reset, in one global order, with no Write torn or interleaved with another.", "quantifier": "every number of goroutines, every schedule, every payload", "why_tests_cant": "schedules cannot be enumerated.", "anchors": ["pkg/http/buffer.go"]}
{"id": "C61", "title": "Buffer operations exclude one another", "statement": "At no point of any execution are two goroutines inside the buffer's critical section.", "quantifier": "every schedule", "why_tests_cant": "schedules.", "anchors": ["pkg/http/buffer.go"]}
{"id": "C62", "title": "Buffer copies are independent", "statement": "A buffer returned by CopyBuffer is never changed by later Write or Reset calls.", "quantifier": "every schedule", "why_tests_cant": "aliasing under schedules.", "anchors": ["pkg/http/buffer.go:Buffer.CopyBuffer"]}
{"id": "C63", "title": "Flushing loses no output", "statement": "Everything written to the server buffer is served by a request before a flush removes it: no byte is discarded by ?flush=true without having been in some response.", "quantifier": "every schedule of writers and requests", "why_tests_cant": "a race window between copy and reset.", "anchors": ["pkg/http/http.go:handleRequest"]}
{"id": "C64", "title": "Only flush=true flushes", "statement": "A request empties the buffer exactly if the first value of its 'flush' query parameter is the string 'true'; otherwise the buffer is unchanged.", "quantifier": "every request", "why_tests_cant": "all query strings.", "anchors": ["pkg/http/http.go:handleRequest"]}
{"id": "C65", "title": "StartServer returns the shared server", "statement": "Every successful StartServer call returns the one package-level server with its listener set; calling it again works.", "quantifier": "every sequence of StartServer calls", "why_tests_cant": "histories.", "anchors": ["pkg/http/http.go:StartServer"]}
{"id": "C66", "title": "Buffer operations do not deadlock", "statement": "In every reachable state with an unfinished operation some goroutine can take a step, and every operation completes after a bounded number of its own steps.", "quantifier": "every schedule", "why_tests_cant": "liveness over schedules.", "anchors": ["pkg/http/buffer.go"]}
{"id": "C67", "title": "Address family follows the resolved address", "statement": "Dial/Listen use an IPv4 socket address exactly if the first resolved address is an IPv4 (or IPv4-mapped IPv6) address and an IPv6 one otherwise, with the same address bytes, port and zone index.", "quantifier": "every resolver answer and port", "why_tests_cant": "all answers of the resolver.", "anchors": ["pkg/socket/socket.go:createSockaddr"]}
{"id": "C68", "title": "Missing host and port default to 0.0.0.0 and 0", "statement": "An address ':port' uses host 0.0.0.0; an address 'host:' uses port 0; anything else is used as given.", "quantifier": "every host and port text", "why_tests_cant": "all strings.", "anchors": ["pkg/socket/socket.go:parseAddress"]}
{"id": "C69", "title": "Bad addresses are returned as errors", "statement": "Dial and Listen return an error for a malformed address, an unknown port or an unresolvable host, and never terminate the process.", "quantifier": "every address string", "why_tests_cant": "all strings.", "anchors": ["pkg/socket/socket.go:parseAddress", "pkg/socket/dial.go:Dial", "pkg/socket/listen.go:Listen"]}
{"id": "C70", "title": "No socket leaks", "statement": "When Dial/Listen return, the socket they created has been closed on every path, and on failure no descriptor stays open.", "quantifier": "every outcome of every system call", "why_tests_cant": "all failure combinations.", "anchors": ["pkg/socket/dial.go:Dial", "pkg/socket/listen.go:Listen"]}
{"id": "C71", "title": "Descriptors are closed exactly once", "statement": "No descriptor number is closed by this package after it has been closed before (it may by then belong to someone else).", "quantifier": "every schedule of later descriptor allocations and garbage collections", "why_tests_cant": "depends on GC timing.", "anchors": ["pkg/socket/dial.go:Dial", "pkg/socket/listen.go:Listen"]}
{"id": "C72", "title": "System calls happen in order and only on a valid socket", "statement": "Dial issues socket, connect (Listen: socket, bind, listen) in that order with protocol 0 for IPv4 and 1 for IPv6, stops at the first failure, and returns that error.", "quantifier": "every outcome of every system call", "why_tests_cant": "all failure combinations.", "anchors": ["pkg/socket/dial.go:Dial", "pkg/socket/listen.go:Listen"]}
{"id": "C73", "title": "BTH texts show every field", "statement": "The String text of a base transport header determines every non-reserved field and does not depend on reserved fields or raw bytes; the Reserved text determines every field.", "quantifier": "every pair of headers", "why_tests_cant": "injectivity is a statement about all pairs of inputs; the test prints one header.", "anchors": ["pkg/roce/bth.go:BTH.String", "pkg/roce/bth.go:BTH.Reserved"]}
{"id": "C74", "title": "LLC and RoCE parsers never look beyond the length of the slice", "statement": "ParseLLC, ParseRoCEv1 and ParseRoCEv2 give the same result, log and panics for slices with the same bytes up to the length, whatever lies between length and capacity.", "quantifier": "every slice, every spare capacity and its contents", "why_tests_cant": "slice expressions are checked against the capacity, so a read past the length is silent in a test whose buffer has room.", "anchors": ["pkg/llc/llc.go:ParseLLC", "pkg/roce/roce.go:ParseRoCEv1", "pkg/roce/roce.go:ParseRoCEv2"]}
{"id": "C75", "title": "LLC String texts are determined by the wire bytes", "statement": "String() of a message returned by ParseLLC is the heading of its type followed by label and value of every non-reserved field in wire order, each value printed from the bits of the field in the buffer in the notation for its kind (decimal, hexadecimal, MAC, IP address, name of the enumerated value).", "quantifier": "every 44 byte message of every type", "why_tests_cant": "the tests compare the text of one message per type, so swapped or mislabelled fields with equal values, and every other value of a field, go unnoticed.", "anchors": ["pkg/llc/llc_confirmlink.go:String", "pkg/llc/llc_addlink.go:String", "pkg/llc/llc_addlinkcont.go:String", "pkg/llc/llc.go:ParseLLC"]}
{"id": "C76", "title": "LLC Reserved texts are determined by the wire bytes", "statement": "Reserved() of a message returned by ParseLLC is the same line with every field of the message, the reserved ones included, in wire order and printed from the bits of the field in the buffer.", "quantifier": "every 44 byte message of every type", "why_tests_cant": "the tests compare the text of one message per type, mostly with zero reserved bytes.", "anchors": ["pkg/llc/llc_confirmlink.go:Reserved", "pkg/llc/llc_addlink.go:Reserved", "pkg/llc/llc_addlinkcont.go:Reserved", "pkg/llc/llc.go:ParseLLC"]}
{"id": "C77", "title": "RoCE header texts are determined by the wire bytes", "statement": "For every packet that ParseRoCEv1 or ParseRoCEv2 returns, String() and Reserved() of the BTH and String() of the GRH are the heading followed by label and value of every (for String() every non-reserved) field in wire order, each value printed from the bits of the field in the packet in the notation for its kind.", "quantifier": "every packet that is long enough, every opcode and flag combination, every namer of IP protocols", "why_tests_cant": "the tests compare the texts of one or two captured packets; fields that are equal there, and all other values, are not distinguished.", "anchors": ["pkg/roce/bth.go:String", "pkg/roce/bth.go:Reserved", "pkg/roce/grh.go:String", "pkg/roce/roce.go:ParseRoCEv1", "pkg/roce/roce.go:ParseRoCEv2"]}
{"id": "C78", "title": "CLC String texts are determined by the wire bytes", "statement": "String() of a message that NewMessage returned and Parse filled without logging an error, from a buffer that holds just this message, is the heading of its type followed by label and value of every non-reserved field in wire order (for Proposals: of every prefix, EID and GID announced, and of the parts selected by path), each value printed from the bits of the field in the buffer.", "quantifier": "every complete CLC message of every type and version", "why_tests_cant": "the tests compare the text of a few captured messages per type; swapped labels, order and other values of fields, flags and counts go unnoticed.", "anchors": ["pkg/clc/clc_proposal.go:String", "pkg/clc/clc_proposal_v2.go:String", "pkg/clc/clc_accept_smcr.go:String", "pkg/clc/clc_accept_smcd.go:String", "pkg/clc/clc_accept_smcd_v2.go:String", "pkg/clc/clc_decline.go:String"]}
{"id": "C79", "title": "CLC Reserved texts are determined by the wire bytes", "statement": "Reserved() of a message that NewMessage returned and Parse filled without logging an error, from a buffer that holds just this message, is the same line with every field of the message, the reserved ones included, in wire order and printed from the bits of the field in the buffer.", "quantifier": "every complete CLC message of every type and version", "why_tests_cant": "the captured messages of the tests have zero reserved fields almost everywhere.", "anchors": ["pkg/clc/clc_proposal.go:Reserved", "pkg/clc/clc_proposal_v2.go:Reserved", "pkg/clc/clc_accept_smcr.go:Reserved", "pkg/clc/clc_accept_smcd.go:Reserved", "pkg/clc/clc_accept_smcd_v2.go:Reserved", "pkg/clc/clc_decline.go:Reserved"]}
{"id": "C80", "title": "The log of CLC parsing is exactly the list of its faults", "statement": "For every message value of the package and every buffer of at least eight bytes that holds the declared length, the log lines of Parse, if it returns, are exactly the reports of the faults of the message in the order of its parts: too short for its kind, a part without room (which ends parsing), counts larger than the entries that are there, and a trailer that is no eyecatcher; each report is one error line followed by the dump of the bytes at fault. NewMessage logs just one report, for headers with an eyecatcher that declare more than 1024 bytes.", "quantifier": "every message kind, previous field value, buffer and capacity", "why_tests_cant": "the tests do not look at the log at all.", "anchors": ["pkg/clc/errdump.go:errDump", "pkg/clc/clc_proposal.go:Parse", "pkg/clc/clc_proposal_v2.go:Parse", "pkg/clc/clc_accept_smcr.go:Parse", "pkg/clc/clc_decline.go:Parse", "pkg/clc/trailer.go:Parse", "pkg/clc/message.go:NewMessage"]}
{"id": "C81", "title": "Decoding of CLC messages is lossless", "statement": "For messages that consist of the parts of their kind with the announced entries and nothing else, the decoded fields written in wire order with their bit widths, reserved ones included, are the bytes of the message; all decoded values fit into their fields; and for every message value whose fields fit, parsing the bytes written from it gives the same fields and trailer again and reports nothing but a trailer that is no eyecatcher.", "quantifier": "every kind of CLC message, every value of its fields and counts, every capacity behind the buffer", "why_tests_cant": "one or two messages per kind are parsed in the tests, with mostly zero reserved fields and no more than one entry per list.", "anchors": ["pkg/clc/clc_proposal.go:Parse", "pkg/clc/clc_proposal_v2.go:Parse", "pkg/clc/clc_accept_smcr.go:Parse", "pkg/clc/clc_accept_smcd.go:Parse", "pkg/clc/clc_accept_smcd_v2.go:Parse", "pkg/clc/clc_decline.go:Parse", "pkg/clc/clc_decline_v2.go:Parse", "pkg/clc/header.go:Parse"]}
{"id": "C82", "title": "CLC messages sent one after another are all read back", "statement": "In front of any further bytes, NewMessage takes the bytes written from a message whose fields fit and whose header has an eyecatcher and a known combination of type, version and path for a message of its kind and returns their number; and the loop that gives Parse the bytes up to this length and goes on behind them reads every list of such messages back from their concatenation, with all fields and trailers, in order, and reports nothing but trailers that are no eyecatchers.", "quantifier": "every list of messages of any kinds and values, every capacity behind the buffer", "why_tests_cant": "every test parses one message in a buffer of its own.", "anchors": ["pkg/clc/message.go:NewMessage", "pkg/clc/eyecatcher.go:HasEyecatcher", "pkg/clc/clc_proposal.go:Parse", "pkg/clc/clc_proposal_v2.go:Parse", "pkg/clc/clc_accept_smcr.go:Parse", "pkg/clc/clc_decline.go:Parse", "pkg/clc/trailer.go:Parse"]}
{"id": "C83", "title": "Nothing between the length and the capacity of a CLC buffer is looked at", "statement": "What lies behind the bytes of the buffer given to Parse, up to its capacity, changes neither the decoded fields nor what is logged, and it does not decide whether Parse panics.", "quantifier": "every kind of message, every buffer, all contents of the spare capacity", "why_tests_cant": "the tests parse whole arrays without spare capacity; slicing beyond the length is legal in Go and is not reported by any tool.", "anchors": ["pkg/clc/clc_proposal.go:Parse", "pkg/clc/clc_proposal_v2.go:Parse", "pkg/clc/clc_accept_smcr.go:Parse", "pkg/clc/clc_accept_smcd.go:Parse", "pkg/clc/clc_accept_smcd_v2.go:Parse", "pkg/clc/clc_decline.go:Parse", "pkg/clc/clc_decline_v2.go:Parse", "pkg/clc/errdump.go:errDump"]}
{"id": "C84", "title": "Hex dumps have rows of sixteen bytes at fixed columns", "statement": "Every Hex() and Dump() text and every hex dump in the log consists of one row per 16 bytes; a row has the offset of its first byte in eight hex digits, the bytes in hex at fixed columns with a gap after the eighth, blanks for missing bytes, and the bytes as printable characters between two bars from column 61 on; so a dump has 79 characters per full row.", "quantifier": "every byte string of every length, every row and column", "why_tests_cant": "the tests compare one dump per message kind, all below 256 bytes of offset.", "anchors": ["pkg/llc/base.go:BaseMsg.Hex", "pkg/clc/raw.go:Raw.Dump", "pkg/clc/errdump.go:errDump", "pkg/roce/bth.go:BTH.Hex", "pkg/roce/grh.go:GRH.Hex"]}
{"id": "C85", "title": "The texts of nil messages are n/a", "statement": "String and Reserved of a nil pointer to a message of any kind return n/a and do not panic; of a pointer that is not nil they return the texts of the message.", "quantifier": "every kind of message, nil and every pointer that is not nil", "why_tests_cant": "no test calls a method on a nil message; the embedding of Accept in Confirm makes the check unreachable for nil Confirm messages, which the type checker accepts.", "anchors": ["pkg/clc/clc_proposal.go:String", "pkg/clc/clc_proposal_v2.go:String", "pkg/clc/clc_accept_smcr.go:String", "pkg/clc/clc_accept_smcd.go:String", "pkg/clc/clc_accept_smcd_v2.go:String", "pkg/clc/clc_confirm_smcr.go:ConfirmSMCR", "pkg/clc/clc_confirm_smcd.go:ConfirmSMCD", "pkg/clc/clc_confirm_smcd_v2.go:ConfirmSMCDv2", "pkg/clc/clc_decline.go:String", "pkg/clc/clc_decline_v2.go:String", "pkg/clc/raw.go:Dump"]}
{"id": "C86", "title": "The HTTP server has no data races", "statement": "In every execution with any number of writers and requests, any two accesses to the same memory by different goroutines, at least one of which is a write, are ordered by happens-before in the sense of the Go memory model. The accesses listed for each step are complete: a step changes nothing else and depends on nothing else.", "quantifier": "every number of goroutines, every interleaving, every pair of accesses", "why_tests_cant": "the race detector sees only the interleavings that happen in a run, and the tests run one request at a time.", "anchors": ["pkg/http/buffer.go:Write", "pkg/http/buffer.go:CopyBuffer", "pkg/http/buffer.go:Reset", "pkg/http/http.go:handleRequest"]}
{"id": "C87", "title": "Texts of messages are printable and cannot forge lines", "statement": "String and Reserved of every LLC and CDC message and of every RoCE header are exactly one line of printable ASCII characters; those of every CLC message are printable without any line feed. What the parsers log consists of lines of printable characters, whatever bytes were received.", "quantifier": "every message value of every kind, every buffer for the logs, including executions that panic", "why_tests_cant": "the tests print messages with well-behaved names; a control character needs a hostile peer, and no tool relates bytes received to characters printed.", "anchors": ["pkg/llc/message.go:String", "pkg/llc/message.go:Reserved", "pkg/roce/bth.go:String", "pkg/roce/grh.go:String", "pkg/clc/clc_proposal_v2.go:EID.String", "pkg/clc/clc_proposal_v2.go:String", "pkg/clc/clc_accept_smcd_v2.go:String", "pkg/clc/clc_accept_smcd_v2.go:fceString", "pkg/clc/errdump.go:errDump"]}
{"id": "C88", "title": "Type codes tell messages and headers apart", "statement": "Two messages returned by ParseLLC have the same GetType exactly if they are of the same Go type. GRHs and BTHs have codes that no message has, whatever was received, so all parts of a packet have different codes.", "quantifier": "every pair of buffers, every packet", "why_tests_cant": "the tests compare single codes; that the code of other payload and the ones of the headers cannot be sent by a peer needs all values of the type byte.", "anchors": ["pkg/llc/base.go:GetType", "pkg/llc/other.go:Parse", "pkg/roce/bth.go:GetType", "pkg/roce/grh.go:GetType", "pkg/llc/llc.go:ParseLLC"]}
{"id": "C89", "title": "Texts of faulty messages and of all headers", "statement": "For every kind and every buffer that holds the message its header declares, whatever its bytes are, String and Reserved of the message that Parse leaves behind show the header as received, every part that was decoded as it is on the wire, and every other part as zero, nil or empty. Announced numbers of entries are shown as received; of EIDs and GIDs as many entries as announced are listed, at most eight, those that are not in the message being empty or zero; of IPv6 prefixes only those in the message. The trailer is shown as Unknown if it was not reached. The texts of every header of eight bytes name unknown types, paths and eyecatchers as such.", "quantifier": "every kind, every buffer of at least the declared length (header texts: every buffer of at least eight bytes), every spare capacity", "why_tests_cant": "the tests print well-formed messages; which stale or zero values are printed of a faulty one depends on where parsing stopped, for all combinations of paths, lengths and counts.", "anchors": ["pkg/clc/header.go:String", "pkg/clc/header.go:Reserved", "pkg/clc/header.go:flagString", "pkg/clc/clc_proposal.go:String", "pkg/clc/clc_proposal_v2.go:String", "pkg/clc/clc_proposal_v2.go:propV2ExtEIDString", "pkg/clc/clc_proposal_v2.go:smcdV2ExtGIDString", "pkg/clc/clc_accept_smcd_v2.go:fceString", "pkg/clc/clc_decline.go:String"]}
{"id": "C90", "title": "Reserved texts of CLC messages show every bit", "statement": "Two CLC messages of one kind with the same text of Reserved agree on every field that is there, reserved fields included, EIDs and host names up to their text; and two complete messages of one kind with the same text are the same bytes.", "quantifier": "every pair of messages of every kind; every pair of complete messages without bytes that belong to no field", "why_tests_cant": "tests compare single texts with expected ones; that no two different messages share one is a statement about all pairs. It is false: EIDs are printed as they are, so two different lists of EIDs have one text.", "anchors": ["pkg/clc/clc_proposal.go:Reserved", "pkg/clc/clc_proposal_v2.go:Reserved", "pkg/clc/clc_accept_smcr.go:Reserved", "pkg/clc/clc_accept_smcd.go:Reserved", "pkg/clc/clc_accept_smcd_v2.go:Reserved", "pkg/clc/clc_decline.go:Reserved", "pkg/clc/header.go:Reserved"]}
{"id": "C91", "title": "RoCE packets are read back from their parts", "statement": "A packet written from the fields of a GRH (RoCEv1 only), the fields of a BTH, a payload and an ICRC is cut into exactly these parts, with all fields read back and the payload parsed by ParseLLC; with an LLC message as payload all its fields are read back. Conversely, the parts of every packet that parses, written one after the other, are the packet.", "quantifier": "every combination of field values that fit their bits, every payload, every ICRC, every spare capacity; every buffer", "why_tests_cant": "there is no encoder in the repository, and the tests parse single recorded packets; that no bit is lost or read twice needs all packets.", "anchors": ["pkg/roce/roce.go:ParseRoCEv1", "pkg/roce/roce.go:ParseRoCEv2", "pkg/roce/roce.go:Parse", "pkg/roce/grh.go:ParseGRH", "pkg/roce/bth.go:Parse", "pkg/llc/llc.go:ParseLLC"]}
{"id": "C92", "title": "GRH texts show every field", "statement": "Two GRHs with the same text agree on all fields but the next header; either both are in front of a BTH or neither is, and in the latter case the names of their protocols are the same. Of headers in front of a BTH the text determines all 40 bytes.", "quantifier": "every pair of GRHs with 16-byte addresses, every naming of protocols without commas in which nothing is named BTH", "why_tests_cant": "a statement about all pairs of headers.", "anchors": ["pkg/roce/grh.go:String", "pkg/roce/grh.go:ParseGRH"]}
{"id": "C93", "title": "Parsing allocates no more than the message is long", "statement": "Parsers allocate exactly the bytes that the message keeps: ParseLLC a copy of the buffer and at most 22 bytes of addresses, ParseRoCEv1 and ParseRoCEv2 at most 18 bytes more than the packet has, Parse of a new CLC message at most as many bytes as its header declares, whatever counts and offsets the message contains. Memory of the caller is left alone.", "quantifier": "every buffer, every content of memory, every kind of message, whenever the parser returns", "why_tests_cant": "the counts and offsets that control the loops come from the peer; that no combination makes a parser allocate more is a statement about all of them.", "anchors": ["pkg/llc/base.go:setRaw", "pkg/llc/llc.go:ParseLLC", "pkg/roce/roce.go:ParseRoCEv1", "pkg/roce/roce.go:ParseRoCEv2", "pkg/clc/clc_proposal.go:Parse", "pkg/clc/clc_proposal_v2.go:Parse", "pkg/clc/clc_accept_smcr.go:Parse"]}
{"id": "C94", "title": "What is logged about one message is bounded", "statement": "Parse of any CLC message logs at most four texts about a buffer, at most two for kinds without counted entries, and NewMessage at most two; each text is a line of at most 100 bytes or the hex dump of a part of the buffer, so no text is longer than 100 bytes and five times the capacity of the buffer.", "quantifier": "every receiver, every buffer, length, capacity and content, also when the parser panics in the end", "why_tests_cant": "the reports depend on counts, offsets and lengths sent by the peer, in combination; that no combination makes the parser fill the log is a statement about all of them.", "anchors": ["pkg/clc/errdump.go:errDump", "pkg/clc/clc_proposal.go:Parse", "pkg/clc/clc_proposal_v2.go:Parse", "pkg/clc/trailer.go:Parse", "pkg/clc/message.go:NewMessage"]}
{"id": "C95", "title": "The texts of parsed messages have bounded lengths", "statement": "String and Reserved of whatever ParseLLC returns are at most 520 and 650 bytes long, those of any BTH at most 400, those of a GRH at most 300 and the longest protocol name; those of a CLC message parsed into a zero value at most 1800 and 2100 bytes and 61 bytes for each IPv6 prefix, where each prefix takes 17 of the bytes the header declares, so at most four times the declared length and a constant. A message that is used again keeps its prefixes and gets at most one more for each 17 bytes declared.", "quantifier": "every buffer, length, capacity and content, every kind of message, every name table for protocols, any number of uses of one message", "why_tests_cant": "the length of a text depends on counts, addresses and numbers sent by the peer; that no combination makes a text long is a statement about all of them.", "anchors": ["pkg/llc/llc.go:ParseLLC", "pkg/roce/bth.go:String", "pkg/roce/grh.go:String", "pkg/clc/clc_proposal.go:String", "pkg/clc/clc_proposal_v2.go:String", "pkg/clc/clc_proposal.go:Parse", "pkg/clc/clc_accept_smcr.go:String"]}
{"id": "C96", "title": "What a crash of Parse leaves in the message", "statement": "When Parse panics because the end of a message is missing and the caller recovers, every field of the receiver has its old value or the value the complete message would have given it. (False: a number of three bytes may be read in part, and an address may be zero. True: there is at most one such field; all fields before it are as in the complete message, all fields after it are as they were, every field completely inside the bytes is as in the complete message, and the raw message is the buffer that was given. Also true: the value of that field is the number without its last one or two bytes, or zeros, or reserved bytes before four of their bits are moved to another field, or a list whose entries are new up to some entry and old from there on; DeleteLink, TestLink, CDC, Decline and the Accepts and Confirms for SMC-D and SMC-Dv2 have no such field, so the statement holds for them. For messages whose fields all have fixed places and buffers without spare capacity, the number of bytes decides the value of every field, and for which numbers of bytes the statement holds.)", "quantifier": "every kind of LLC and CLC message and BTH, every receiver, every buffer and every longer buffer that is parsed without a panic, every capacity and content", "why_tests_cant": "the state after a panic depends on where the buffer ends and on counts, offsets and lengths in it, and on what the receiver held before; tests compare values of successful calls.", "anchors": ["pkg/llc/llc_confirmlink.go:Parse", "pkg/llc/llc_addlink.go:Parse", "pkg/llc/cdc.go:Parse", "pkg/roce/bth.go:Parse", "pkg/clc/clc_proposal.go:Parse", "pkg/clc/clc_proposal_v2.go:Parse", "pkg/clc/clc_accept_smcr.go:Parse", "pkg/clc/clc_decline_v2.go:Parse"]}
{"id": "C97", "title": "Messages can be parsed in several goroutines at once", "statement": "Any number of calls of ParseLLC, ParseRoCEv1, ParseRoCEv2 and CLC Parse run in goroutines of their own, on shared or different buffers, with their steps in any order. As long as nobody writes to the buffers being parsed, every call returns, logs and allocates what it does when it is alone, finishes after as many of its own steps, and looks at no shared memory but its buffer; no call writes to shared memory, so there are no data races. If somebody does write to a buffer while it is parsed, the message may be neither that of the old nor that of the new bytes.", "quantifier": "every number of calls, every memory, every buffer with any overlaps, every order of steps, every writes of others to other arrays in between", "why_tests_cant": "the number of interleavings grows exponentially, and a scratch buffer or a temporary change of the input would show only in rare ones; the race detector sees only the schedules that occur.", "anchors": ["pkg/llc/llc.go:ParseLLC", "pkg/llc/base.go:setRaw", "pkg/roce/roce.go:ParseRoCEv1", "pkg/roce/roce.go:ParseRoCEv2", "pkg/clc/message.go:Parse", "pkg/clc/clc_proposal_v2.go:Parse", "pkg/clc/raw.go:Parse"]}
{"id": "C98", "title": "What is dumped or reported can be parsed again", "statement": "The hex dump of a parsed LLC or CDC message, and those of the parts of a RoCE packet one after the other with its ICRC, are the parsed bytes; parsed again they give the same message or packet. The dump of a CLC message that was parsed from a slice without spare capacity gives the same message and the same log again. The dump in the first report on a faulty complete CLC message, unless it is the report on the trailer, gives the same fields and the same reports again, but for the one on the trailer; left out are messages declared shorter than eight bytes and version 1 Proposals of 52 to 79 bytes with IP area offset 40.", "quantifier": "every buffer, every spare capacity, every kind of message, every fault", "why_tests_cant": "a dump that misses a byte, or a parser that depends on something that is not dumped, shows only for some messages; the claim joins the parsers, the dumps and the reports for all of them.", "anchors": ["pkg/llc/base.go:Hex", "pkg/llc/llc.go:ParseLLC", "pkg/roce/bth.go:Hex", "pkg/roce/grh.go:Hex", "pkg/clc/raw.go:Dump", "pkg/clc/message.go:NewMessage", "pkg/clc/errdump.go:errDump"]}
{"id": "C99", "title": "The beginning of a text says what it is about", "statement": "The texts of an LLC or CDC message, with and without reserved fields and whatever the fields are, begin with the name of its kind; those of CLC messages with one of the five type names, those of BTHs and GRHs with BTH and GRH. No text begins like one about something else, so equal texts belong to messages of the same kind. CLC messages that NewMessage and Parse make of received bytes and that have the same text are of the same kind too, although the texts of the two versions begin alike. Together with C20 and C50 this makes the text determine kind and fields.", "quantifier": "every message and header with any fields, every two buffers", "why_tests_cant": "that no text of one kind equals one of another kind is a claim on all pairs of messages; tests compare few.", "anchors": ["pkg/llc/llc.go:ParseLLC", "pkg/llc/cdc.go:String", "pkg/clc/header.go:String", "pkg/clc/message.go:NewMessage", "pkg/roce/bth.go:String", "pkg/roce/grh.go:String"]}
{"id": "C100", "title": "Messages arrive at the reader of the page as whole lines", "statement": "Any number of goroutines write texts of one line each into the buffer of the server, while requests are answered, with their steps in any order. The lines of every response, found by looking for line feeds, are the texts written since the last reset before the copy that is sent, in their order and each of them whole; if the connection took less than the copy, the first of them and perhaps the beginning of one more. A page of one line texts determines these texts, and a page of texts of LLC and CDC messages their number and kinds in their order. The same holds for the texts of CLC messages, ended by a line feed, with printable names.", "quantifier": "every number of goroutines and requests, every interleaving, every list of messages", "why_tests_cant": "mixed or torn lines depend on the interleaving and on what the texts consist of; a test sees few of both.", "anchors": ["pkg/http/buffer.go:Write", "pkg/http/buffer.go:CopyBuffer", "pkg/http/http.go:handleRequest", "pkg/llc/llc.go:ParseLLC", "pkg/clc/message.go:NewMessage"]}
{"id": "C101", "title": "Dial and Listen work on their own sockets only", "statement": "Whenever Dial or Listen connects, binds, listens on, wraps or closes a descriptor, the descriptor is at that moment the socket the same call created.", "quantifier": "every number of concurrent calls, every interleaving with others who open and close descriptors and with the garbage collector, every answers of the kernel", "why_tests_cant": "descriptor numbers are reused by the kernel and finalizers run at any time; the failure needs both at the wrong moment.", "anchors": ["pkg/socket/dial.go:Dial", "pkg/socket/listen.go:Listen"]}
{"id": "C102", "title": "Returned connections stay open until their owner closes them", "statement": "A connection or listener that Dial or Listen creates stays open until the one who got it closes it.", "quantifier": "every number of concurrent and later calls, every interleaving with others and with the garbage collector", "why_tests_cant": "depends on the reuse of descriptor numbers and on the timing of the garbage collector, possibly long after the call.", "anchors": ["pkg/socket/dial.go:Dial", "pkg/socket/listen.go:Listen"]}
{"id": "C103", "title": "A Write that panics does no harm", "statement": "A Write in which bytes.Buffer panics because it cannot grow releases the lock and leaves the buffer unchanged: the panic reaches its caller and nobody else, and all other operations return what they would if it had never been called.", "quantifier": "every number of goroutines, every schedule, any number of panicking Writes", "why_tests_cant": "the panic needs a buffer near the size of the address space, in the middle of concurrent operations.", "anchors": ["pkg/http/buffer.go:Write"]}
{"id": "C104", "title": "Messages can be read back from the page", "statement": "A reader of a page on which the text of every message or header is followed by a hex dump of its bytes, written by any number of goroutines while requests are answered, finds exactly the texts and dumps that were written, in their order; the dumps of LLC and CDC messages, parsed again, are the messages, those of the parts of RoCE packets are the packets without their ICRCs, and those of CLC messages are their buffers. (False of CLC messages with line feeds in EIDs or host names.)", "quantifier": "every list of messages, packets and headers, every schedule of writers and requests", "why_tests_cant": "depends on all bytes of all messages on the page and on the interleaving of writers; tests look at single dumps.", "anchors": ["pkg/llc/base.go:Hex", "pkg/clc/raw.go:Dump", "pkg/roce/bth.go:Hex", "pkg/http/http.go:handleRequest"]}
{"id": "C105", "title": "The server returned by StartServer listens where it serves", "statement": "However calls of StartServer overlap, at most one of them returns, every other one that gets a listener panics, and when one returns the listener of the server is the one that is served. (False: with two overlapping calls the one that returns can return a server with the listener of the other, which nobody serves or closes.)", "quantifier": "every number of goroutines, every interleaving of the statements of their calls, every outcome of net.Listen", "why_tests_cant": "depends on the interleaving of calls; the test makes a single call.", "anchors": ["pkg/http/http.go:StartServer"]}
{"id": "C106", "title": "The text of an address is dialed as that address", "statement": "Dial and Listen on the text that a listener or connection shows as its address (host number or bracketed IPv6 address with an optional zone, and port) use exactly that address and port, whatever the name service answers; every address they ever use has such a text; exactly the canonical dotted texts of IPv4 addresses and the texts of RFC 4291 with an optional zone are taken as addresses, numeric ports are themselves or end the process, and IPv4 addresses written as IPv6 addresses are used as IPv4.", "quantifier": "every IPv4 and IPv6 address, port, zone and address text, every system (names, services, interfaces)", "why_tests_cant": "2^128 addresses with the many shapes of their texts (runs of zeros, embedded IPv4); tests dial the loopback address.", "anchors": ["pkg/socket/socket.go:parseAddress", "pkg/socket/socket.go:parseIP", "pkg/socket/socket.go:createSockaddr", "pkg/socket/dial.go:Dial", "pkg/socket/listen.go:Listen"]}
{"id": "C107", "title": "Changing the SMC option leaves the recognition of messages alone", "statement": "A program that imports pkg/clc and changes the exported variable SMCOption, by assigning it or by writing to its bytes, changes what CheckSMCOption accepts and nothing else; messages, trailers and eyecatchers are recognised by the current contents of SMCREyecatcher and SMCDEyecatcher. (False: SMCOption and SMCREyecatcher share one array. True for options with an array of their own, and of SMCDEyecatcher.)", "quantifier": "every sequence of writes, assignments, reslicings and appends to the three variables, every buffer and option list", "why_tests_cant": "tests leave the variables as they are; the aliasing shows only after a write through one of them, and the sequences of writes are unbounded.", "anchors": ["pkg/clc/eyecatcher.go:SMCREyecatcher", "pkg/clc/eyecatcher.go:HasEyecatcher", "pkg/clc/tcp_option.go:SMCOption", "pkg/clc/tcp_option.go:CheckSMCOption", "pkg/clc/message.go:NewMessage", "pkg/clc/trailer.go:Trailer.Parse"]}
{"id": "C108", "title": "Every path shows the page", "statement": "Whatever path a request to the server asks for, the client gets the page: paths without empty names, '.' and '..' are handed to the handler with their query, all others are redirected to the place they lead to, a client that follows the redirect gets the page with no further redirect, and the buffer is emptied exactly if the first request asked for it (queries with '#' aside, which clients do not send).", "quantifier": "every path and query, every escaping of paths that keeps slashes and dots", "why_tests_cant": "unboundedly many paths, cleaned by a loop that backtracks and is applied twice; the unit test calls the handler without the mux.", "anchors": ["pkg/http/http.go:StartServer", "pkg/http/http.go:handleRequest"]}
{"id": "C109", "title": "Pages of messages are served as plain text", "statement": "A page that consists of texts of messages, headers and dumps is sent with the type text/plain, whatever was received; no page is sent as HTML or XML unless its first character that is not white space is '<'.", "quantifier": "every list of items on a page, every message, header and dump, every interleaving of writers and requests, every page for the second part", "why_tests_cant": "the type is guessed by net/http from the first 512 bytes, which depend on unboundedly many messages; the unit test looks at the body only.", "anchors": ["pkg/http/http.go:handleRequest", "pkg/clc/clc_accept_smcd_v2.go:AcceptSMCDv2.String", "pkg/clc/clc_proposal_v2.go:ProposalV2.String"]}
{"id": "C110", "title": "Re-parsing into a used RoCE header equals a fresh parse", "statement": "Parse of a BTH or a GRH gives the same header, whatever was in it before, and panics in the same cases; for a GRH this holds for all buffers of at most 40 bytes, like those of RoCEv1 packets, and for longer ones unless gopacket panics on Hop-by-Hop options behind the header, in which case the header stays as it was.", "quantifier": "every previous header, every buffer, every behaviour of gopacket on options", "why_tests_cant": "tests parse into new headers only; what is left of an old one depends on every field being assigned on every path.", "anchors": ["pkg/roce/bth.go:BTH.Parse", "pkg/roce/grh.go:GRH.Parse"]}
{"id": "C111", "title": "Clients get the page they flush", "statement": "Whatever method and protocol version a client uses, it reads from the response to a request exactly the page, also if further responses follow on the connection, or the request leaves the page in the buffer.", "quantifier": "every method, HTTP/1.0 and HTTP/1.1, every page of any length, every number and size of writes of the handler, every state of the buffer reached by any interleaving before", "why_tests_cant": "net/http chooses between a length, chunks and the end of the connection by the size of the page and the version; the unit test sends one GET and reads a few bytes.", "anchors": ["pkg/http/http.go:handleRequest", "pkg/http/buffer.go:Buffer.CopyBuffer"]}
{"id": "C112", "title": "The buffer neither keeps nor changes the memory of its callers", "statement": "Callers may write to their slices and to the copies they got at any time, except to a slice while a Write of it is running: all calls return what they would return if every Write had been given bytes of its own. The methods change no memory of callers. If a caller does write to a slice while it is written, only the bytes of that Write are affected, their number is right, and everything else is as before.", "quantifier": "every number of goroutines, every interleaving of method steps, allocations and single-byte writes of callers, slices of any arrays at any offsets, also of copies returned before", "why_tests_cant": "aliasing shows only when memory is used again at particular points of particular schedules; fmt.Fprintf, the usual caller, reuses its buffers at once.", "anchors": ["pkg/http/buffer.go:Write", "pkg/http/buffer.go:CopyBuffer"]}
{"id": "C113", "title": "The page takes no more memory than twice its size", "statement": "The array that holds the page has at most twice the bytes of the page (rounded up by the allocator, at least 64), an empty page holds no array, so a flush gives all memory of the page away, and all Writes together move at most twice the bytes they add when the array grows.", "quantifier": "every number of goroutines, every interleaving of Writes, copies and resets, every way in which the allocator rounds sizes up", "why_tests_cant": "unboundedly many sequences of Writes and resets; the unit test looks at the contents only, which are the same for a Reset that keeps the array.", "anchors": ["pkg/http/buffer.go:Write", "pkg/http/buffer.go:Reset"]}
{"id": "C114", "title": "A client that polls with flush=true gets the output once and in order", "statement": "If requests are answered one at a time, all with flush=true and every response sent in full, the responses one after the other followed by the buffer are exactly the bytes that were written outside of the times between a copy of the page and its reset, every byte once and in the order of the writes. With a single writer that does not write while a request is answered, they are exactly the bytes given to Write in the order of its calls.", "quantifier": "every number of goroutines, requests and Writes, every interleaving, every way the responses end up one after the other", "why_tests_cant": "unboundedly many requests and interleavings; the unit tests make single requests and do not look at what several responses contain together.", "anchors": ["pkg/http/http.go:handleRequest", "pkg/http/buffer.go:CopyBuffer", "pkg/http/buffer.go:Reset"]}
{"id": "C115", "title": "A page shows what was written before the request, in order", "statement": "Every page is a beginning of the copy its request made, and consists of whole writes that were called before the copy returned, none more often than it was called. A write that returned before the page was copied is in the copy, and two writes made one after the other are in it in this order, unless a reset ran since; a later copy begins with an earlier one unless a reset ran since; behind a reset the copy is empty unless a write ran since.", "quantifier": "every number of goroutines, requests and Writes, every interleaving, other operations running at the same time", "why_tests_cant": "unboundedly many interleavings; the unit tests make one request after one Write.", "anchors": ["pkg/http/http.go:handleRequest", "pkg/http/buffer.go:Write", "pkg/http/buffer.go:CopyBuffer", "pkg/http/buffer.go:Reset"]}
{"id": "C116", "title": "Every request is answered once", "statement": "As long as a request or an operation is unfinished some goroutine can take a step, without new ones only finitely many steps are possible, and from every state all can finish; clients that do not read hold up nobody else. A goroutine does what it starts one after the other: a request copies the buffer, sends exactly one response, which is a beginning of the copy, and resets the buffer afterwards exactly if the first value of flush is 'true'; each takes a number of the goroutine's own steps that depends on the number of bytes it copies only.", "quantifier": "every number of goroutines, every interleaving of requests and calls of Write, CopyBuffer and Reset, every query and every number of bytes clients take", "why_tests_cant": "liveness and exactly-once behaviour over all interleavings; the unit tests make one request at a time.", "anchors": ["pkg/http/http.go:handleRequest", "pkg/http/buffer.go:Write", "pkg/http/buffer.go:CopyBuffer", "pkg/http/buffer.go:Reset"]}
{"id": "C117", "title": "What is read from a connection does not depend on how its bytes are cut into segments", "statement": "A reader that appends what arrives to the bytes it has not used yet, and gives Parse the bytes up to the length that NewMessage returns as soon as they are there, decodes the same messages, logs the same, leaves the same bytes and panics or not, however the bytes are cut into segments and whatever is in the arrays behind them.", "quantifier": "every sequence of bytes, all ways of cutting it into segments, all contents of the spare capacity; messages of any kinds and values", "why_tests_cant": "every test parses one complete message in a buffer of its own; which bytes are behind a message depends on the timing of the network.", "anchors": ["pkg/clc/message.go:NewMessage", "pkg/clc/clc_proposal.go:Parse", "pkg/clc/clc_proposal_v2.go:Parse", "pkg/clc/clc_accept_smcr.go:Parse", "pkg/clc/clc_accept_smcd_v2.go:Parse", "pkg/clc/clc_decline.go:Parse"]}
{"id": "C118", "title": "Copies of messages are independent of one another", "statement": "A program copies CLC messages by assigning them to one another, and parses further messages into any of them. A call of Parse changes what the message it is called on shows, to what Parse makes of a message that showed the same, and changes no other message.", "quantifier": "every number of messages of all types, every sequence of assignments, Parse calls that return or panic, and clearings, every buffer, every way in which append chooses capacities", "why_tests_cant": "the IPv6 prefixes of copies are in one array, and it shows only if two copies both append to it and there is room left in it; the tests parse every message once into a new value.", "anchors": ["pkg/clc/clc_proposal.go:Proposal.Parse", "pkg/clc/clc_proposal_v2.go:ProposalV2.Parse"]}
