# Formal model of hwipl/smc-go: design

## Shape of the model

| Lean module | models |
|---|---|
| `Verif/Go.lean` | Go runtime fragment: byte slices with length *and* capacity, panics, the log, `copy`, `binary.BigEndian` |
| `Verif/Dumper.lean` | the dumper behind `hex.Dump`, byte by byte |
| `Verif/Fmt.lean` | `fmt.Sprintf` for the verbs used, `hex.Dump`, `net.IP.String`, `net.HardwareAddr.String` |
| `Verif/LLC.lean` | all of `pkg/llc` |
| `Verif/CLC/*.lean` | all of `pkg/clc` |
| `Verif/RoCE.lean` | all of `pkg/roce` (the gopacket IPv6 decoder is modelled from RFC 8200) |
| `Verif/Http/*.lean` | `pkg/http`: buffer with its mutex as an interleaving machine, handler, `StartServer`, the memory of callers (`Lent.lean`), the way of a request through the mux (`Mux.lean`), the type of the page (`Sniff.lean`), the framing of the response (`Reply.lean`) |
| `Verif/Socket.lean` | `pkg/socket`: address logic, system-call sequencing, descriptor life cycle |
| `Verif/CLC/Vars.lean` | the exported variables of pkg/clc as memory that can be changed, for C107 |
| `Verif/Netip.lean` | what `net.LookupPort` and `LookupIPAddr` do with numbers and literal addresses (`netip.ParseAddr`), for C106 |
| `Verif/Heap.lean` | memory, step by step: which slices of a parsed message share memory with the caller's buffer, what is read and written when |
| `Verif/Crash/*.lean` | every `Parse` of LLC, CLC and BTH again, one assignment to the receiver after another |
| `Verif/Spec/*.lean` | specifications, independent of the model |
| `Verif/Props/*.lean` | the property theorems, one file per area |
| `Verif/Tests/*.lean` | the repo's own unit test vectors run through the model (tests, not proofs) |

A Go slice is a pair `vis`/`extra`: the `len` visible bytes and the bytes
between `len` and `cap`. `s[a:b]` is checked against the capacity and `s[i]`,
`s[a:]` against the length, as in the Go specification. Every function that can
panic lives in the monad `Go`, whose results are `ret log value` and
`panic log`; `log` is the list of texts passed to package `log`.
Parsers take the receiver's old value and return the new one, so re-use of a
message value is expressible. What is in the receiver after a panic is modelled in
`Verif/Crash/`, for C96.

Go integers are `UInt8/16/32/64` of the same width; `int` values are `Nat`
where they come from unsigned conversions and `Int` where the code subtracts.
Go strings are byte lists, since EIDs print arbitrary bytes.

## Plan per property

* **C01, C02, C03, C15** dispatch of `ParseLLC`: closed form of each parser on a
  list of 44 bytes, case split on length and first byte.
  C01 is false of the code: `ConfirmRKeyCont.Parse` reads a 45th byte. Prove the
  exact panic condition and the refutation; keep a `_partial`.
* **C04–C12, C23, C32, C34–C39** layout: specification `bits buf off w`, the
  number in bits `off..off+w` of the big-endian integer `buf`; one equation per
  field.
* **C13, C24** round trip: an encoder written from the wire format as a list of
  (value, width) pairs; both compositions with the parser are the identity.
* **C14, C28, C31, C33, C45** panic freedom: exact `panic ↔ condition` theorems over
  all lengths and capacities. C33 is false for v2 proposals announcing more than
  eight EIDs or GIDs; C45 is false; both get exact theorems (`Verif/Spec/Crash.lean`
  for truncated messages) and partial ones plus a
  refutation.
* **C16** a decoder for hex dumps, and `undump (dump b) = b` by induction.
* **C17, C54, C58** heap model with references, frame lemma over later writes.
* **C18, C46** receiver-independence of the result; refuted for proposals
  (prefixes accumulate) and for AddLink's last two reserved bytes.
* **C19–C21, C49, C50** texts: congruence for non-interference; a general
  unique-parsing theorem for format strings for injectivity. Refuted for
  AddLinkCont (first RKey pair is not printed), AddLink (two reserved bytes are not
  printed) and messages printing EIDs.
* **C73** like C20, C21. **C74** by the closed forms of the parsers.
* **C75–C79** exact texts: the fields of each message as a list of labelled values
  printed from the bits of the buffer; the printers are specified apart from `fmt`
  and shown equal to it.
* **C80** the log as a list of reports per fault, by the closed forms of the parsers.
* **C81** an encoder for CLC messages in the specification: decoded fields joined
  to the bits of the buffer, injectivity field by field, positions and counts read
  back from the encoding. **C82** by induction over the messages; the reading loop is
  part of the specification, as the package leaves it to its callers.
* **C84** the dumper of encoding/hex byte by byte (`Verif/Dumper.lean`), shown equal to
  the line by line `hexDump` and to a table of characters by row and column.
* **C83** two executions side by side, with and without spare capacity
  (`Verif/Lemmas/Spare.lean`); refuted for every kind, partial for buffers whose
  parsing does not panic without spare capacity.
* **C85** pointers as options (`Verif/CLC/Nil.lean`); refuted for Confirm messages,
  whose methods are promoted from an embedded struct.
* **C86** the accesses of every step (`Verif/Http/Memory.lean`) and happens-before
  (`Verif/Spec/Race.lean`): arrays belong to the buffer or to one goroutine; for the
  former, the last release comes before the acquire of the next one in the critical
  section. Footprints by cases.
* **C87** printability part by part (`Verif/Lemmas/Printable.lean`), logs by following
  the steps of the parsers (`Verif/Lemmas/Logs.lean`); refuted for messages with EIDs or
  host names, with the exact condition.
* **C88** from C03, C15 and C22.
* **C89** generalises C78 and C79: the items are given for the bytes of any message (`Spec/CLCShown.lean`), with blank items
  for the parts that were not decoded; header, optional parts and loops are shown one by one, using the theorems about fields
  (C34–C42), short messages (C40) and trailers (C44).
* **C50_exact, C90_exact** The text of a Proposal is cut from the left up to its names and from the right up to them: the
  trailer has a fixed length, and `[` is not in the GIDs. In SMC-Dv2 messages no name is long enough to contain the labels
  behind it.
* **C90** as C50, for all fields: the texts are cut field by field, which gives all fields but the bytes of EIDs after
  their text (`Spec/CLCEvery.lean`); with C81 (no bit is lost) this gives the bytes. False for EIDs that contain
  commas (`C90_eid_false`) or differ after their text (`C90_padding_false`).
* **C91** the bits of a GRH are written down in wire order (`Spec/Packet.lean`); lossless by C26, injective by cutting,
  hence the round trip. Packets by list splitting with C24 and C13. False for Confirm RKey Continuation messages only,
  on which the parsers panic (`C91_message_false`). **C92** by cutting the text as in C90.
* **C93** on the memory model (`Verif/Heap.lean`): what each statement allocates is added up (`Lemmas/Alloc.lean`); the
  loops over prefixes by induction, every round taking 17 bytes of the message and allocating 16. Only byte slices are
  counted, not the structs, logs and texts.
* **C94** no assumption on the buffer: the texts are counted through every branch (`Lemmas/Few.lean`), panics included.
  For Proposals of version 2 the bound of four needs that a fault in one area leaves no room for the next one. That each
  text is short or a dump of a part of the buffer is shown in `Lemmas/LogSize.lean`. Time stamps and prefixes that package
  log adds are not counted.
* **C95** every verb of a format has a longest output (`Lemmas/TextSize.lean`), and parsing keeps the sizes of arrays and
  counts the prefixes against the declared length (`Lemmas/Fits.lean`). The bounds are round numbers, not exact ones. The
  names of protocols in the text of a GRH are gopacket's; the bound is stated for any name table.
* **C96** needs the receiver after a panic, which results in `Go` do not have. `Verif/Crash/` has every `Parse` again as a
  list of assignments to the receiver; `C96_agree_*` prove that both models return and log the same, so all other theorems
  hold of both. Two runs are compared, on the bytes that are there and on the complete message (`Lemmas/Tail.lean`). The
  full statement is refuted by a ConfirmLink cut inside its queue pair number and by a Proposal cut inside its GID; the
  `_partial` theorems say that there is at most one such field. Fields whose place depends on others have no entry in the
  tables of ends, so for them only the order is stated. `C96_*_values*` list the values such a field can have
  (`Spec/LeftValue.lean`, proved in `Lemmas/Cut*.lean` and `Lemmas/Held.lean`): a number of three bytes without its last
  one or two, an address of zeros, the reserved bytes of a Decline of version 2 before four of their bits are moved away,
  a list whose entries are new up to some entry and old from there on, a list of prefixes that has grown in part. For DeleteLink, TestLink, CDC,
  Decline and Accepts and Confirms for SMC-D and SMC-Dv2 there are none, so C96 holds for them as it stands. `C96_*_exact`
  give every field after the crash from the number of bytes alone (`Spec/LeftWhen.lean`), for the fourteen kinds of message whose
  fields all have fixed places and for buffers without spare capacity; a CLC message has to say that it is long enough.
  They are proved by computing `Parse` for each number of bytes (`Lemmas/LeftWhen.lean`, `Lemmas/LeftLists.lean`).
  `C96_*_iff` say for exactly which numbers of bytes C96 holds as it stands, for the eight of them for which it is false.
  The arrays of the code are lists in the model; `hm` says that they have the lengths of the arrays.
* **C97** the parsers on memory (`Verif/Heap.lean`) are lists of steps; `Spec/Parallel.lean` lets the steps of any number of
  calls happen in any order, with writes of others in between. A predicate on computations, checked statement by statement
  (`Lemmas/Parallel.lean`), says that they look at nothing but the buffer and their own arrays and write to nothing but
  their own arrays; hence every call does what it does alone (`Lemmas/ParallelRun.lean`), which the theorems for C17, C54 and
  C58 relate to the parsers on values. A step may look at several bytes where Go looks at them one after the other; as nobody
  writes to what is looked at, this makes no difference. `C97_torn` shows that writing to the buffer does.
* **C98** from C16 (dumps), C22, C74 and C83 (what the parsers depend on), C80 (the reports) and C43
  (bytes behind the message). C43 got a part on the log: `C43_log_partial`, `C43_log_false`.
* **C99** headings as a table (`Spec/Heading.lean`), checked pairwise; the texts by normalising the
  format strings; with C20, C32 and C50.
* **C100** from the invariant of C63 and from C87 (texts of messages are one line) and C99.
* **C103** on the machine of C60, which has a `Write` that panics as an operation; leaving such operations out of a
  linearization leaves a linearization of the rest.
* **C104** a reader of pages (`Spec/ReadPage.lean`) that puts lines of a dump together up to the next offset zero; texts
  do not look like such lines because of C99, and the rest is C84, C98 and C100. Dumps of nothing have no lines, so
  payloads are not empty; offsets have eight digits, so dumps are of at most 2^32 bytes. `C104_exact`: the
  reader gets the buffers and, among them, the lines of the texts that look like lines of a dump.
* **C105** the statements of any number of `StartServer` calls as an interleaving machine (`Http/Start.lean`); a call
  that is not interrupted is the `startServer` of C65 (`C105_alone`). Counting the goroutines about to serve.
  `C105_exact`: a listener replaced in the server never comes back, because every call opens a new one.
* **C106** `netip.ParseAddr` loop by loop (`Netip.lean`), run on the texts of `net.IP.String`: the loop over groups by
  induction on the groups before and behind the ellipsis, with the run lemmas of C50. The texts accepted are characterised
  by a grammar that knows nothing of the loops (`Spec/Literal.lean`, after RFC 4291), as an equivalence (`C106_texts`).
* **C107** the three exported variables as slices in a memory that any program can write to (`CLC/Vars.lean`);
  refuted by one write. Variables in different arrays by an invariant over sequences of statements.
  `C107_exact`: byte by byte, from the places that a statement writes to (`Writes`).
* **C108** `path.Clean` loop by loop with its backtracking (`Http/Mux.lean`); the specification walks over the names of the
  path (`Spec/Path.lean`). What was written so far is the text of the names walked so far, reversed. Clean paths are the
  fixed points, and escaping keeps them clean, which bounds the redirects. Decoding undoes the escaping (`C108_decoded`).
* **C109** the signatures of `http.DetectContentType` one by one (`Http/Sniff.lean`). The headings of messages are apart from all
  signatures in one of the first bytes, except one that looks for "LP" at an offset, which is excluded by following the
  texts: no `P` comes behind an `L` in them. `C109_html` says exactly which pages are HTML.
* **C110** every field is assigned, for the GRH because gopacket makes a new one. Whether gopacket panics on options behind the
  header is a parameter.
* **C111** the response writer of `net/http` (`Http/Reply.lean`) against a reader of bodies (`Spec/Reply.lean`): an invariant over
  the writes says which chunks were sent and what is buffered.
* **C112** the machine of C60 with the memory of callers in the same heap (`Http/Lent.lean`). The invariant of C60 is kept by
  writes to arrays that no method uses. A `Write` whose bytes change before they are copied is taken for one that was called
  with the bytes it is going to have copied: induction over the steps that are still to come says which bytes these are.
* **C113** the machine of C60 with the capacities that `bytes.Buffer` asks for (`Http/Grow.lean`). Bytes moved since the last
  reset are paid for by the capacity, which at least doubles, and by the length of the page.
* **C114** an automaton reads from the observable events where a polling client is (`Spec/Poll.lean`). Induction over the
  history of C63: in every state of the automaton it is known who is in `CopyBuffer` or `Reset` and what the client has.
* **C115** splits of the observable events split the history of C63. What runs at no time in a part of the events takes no effect
  there, and effects are counted against calls with the list of goroutines in between.
* **C116** for one goroutine, by induction over the steps of all: what it has started, what was observed of it and how many steps
  it took belong to a list of finished jobs and one stage of the present job (`Lemmas/Answer.lean`). Progress as for C66, with
  a measure that counts what handlers still have to do. That a client takes bytes or the connection fails is one step, so a
  client that does neither keeps its own request, and only that, from being answered (`C116_slow_clients`).
* **C117** the reader of `Spec/Segments.lean` is not in /repo, it is how the package is meant to be used. It is false if the reader
  slices with `buf[:l]`, which leaves the bytes behind the message within the capacity: a version 1 Proposal that declares 52 bytes
  and SMC-D info takes this from the next message if it has arrived, and panics otherwise. Proved for `buf[:l:l]` and all streams
  (`C117_clipped`, reading a concatenation is reading its first part and going on with the rest), and for `buf[:l]` exactly for
  the streams where no such message comes before the first one that panics anyway (`C117_exact`). Encoded messages are never
  like this (`C117_stream`).
* **C118** a machine with several messages and with the arrays of their prefixes (`Crash/Copies.lean`), for every choice of capacities.
  What `append` does to every element of every array, by induction over the appended prefixes (`appends_spec`). Refuted by two
  copies that append one prefix each. Exactly when another message changes (`C118_exact`); it never does if messages are cleared
  before they are parsed into (`C118_careful_partial`), or by the longest of the messages that share an array (`C118_partial`).
* **C22, C26, C27** RoCE by list splitting.
* **C29, C30** decision table. **C40, C44, C48** log and early returns.
* **C41, C42** induction over the entry loops. **C43** locality by congruence.
* **C47** the embedded struct is the same function; stated on the `Message` level.
* **C51–C53, C25, C55** text functions: finite tables or list induction.
* **C56, C57** refuted by concrete messages; partial theorems for agreeing offsets. `C56_ignored` compares messages that differ
  in their offsets only, area by area. `C56_exact`:
  the fields of an area are all of its bits, so reading them from two places gives the same only if the bytes are the same.
* **C60–C62, C66** interleaving machine with program counters, invariants by
  induction over steps, refinement to an atomic buffer. **C63** refuted by a
  schedule; partial for schedules without a write inside the window. **C64, C65**
  sequential semantics of the handler and of handler registration.
* **C67–C72** socket logic with resolver and system calls as parameters;
  descriptor table machine with garbage collection as a nondeterministic step.
  C69 and C71 are refuted; partials kept. **C101, C102** on the same machine, refuted by
  two calls and one finalizer; partial for finalizers that find their numbers not in use. Exactly
  (`C101_exact`, `C102_exact`, `C102_finalizers`): which finalizers do harm, by induction over the execution with `FdInv`.

## Trusted base

* The Lean 4.33.0 kernel. Nothing is compiled and trusted: no `native_decide`, no
  `bv_decide`, no axioms of our own, no `sorry`. Mathlib is not used.
* The standard axioms `propext`, `Quot.sound` and `Classical.choice`, and no others.
  Of the 495 claimed theorems, 302 depend on all three and 168 on `propext` and
  `Quot.sound`. C100_unique depends on none, and these 24 depend on `propext` only: C101_false, C101_steals, C102_false,
  C105_false, C105_race, C108_decoded, C111_framing, C111_head_length, C19_string,
  C20_addLinkCont_false, C21_addLinkCont_false, C21_addLink_false, C53_descriptions,
  C53_known, C53_unknown, C65_false, C67_protocol, C68_defaults, C68_forms,
  C68_split, C69_exits_iff, C69_false, C69_panics_iff, C99_header. `#print axioms` on any theorem
  shows its own.
* That the model says what the code does. It was written by reading the source
  next to the Go specification and the standard library documentation. The code was
  not run. `Verif/Tests` runs the inputs of the repository's own unit tests through
  the model and compares with the results expected there.
* That the statements in `Verif/Props` and the definitions in `Verif/Spec` say what
  the entries of `properties.jsonl` say.

### Modelled

Every function of `pkg/llc`, `pkg/clc`, `pkg/roce`, `pkg/http` and `pkg/socket`.
There is no other non-test code in the repository. Comments on the definitions cite
the lines.

### Modelled from documentation, not from source in the repository

* `fmt.Sprintf` for the verbs and argument types that occur, `hex.Dump`,
  `net.IP.String`, `net.HardwareAddr.String`, `encoding/binary.BigEndian`.
* The IPv6 decoder of gopacket, from RFC 8200. It is used only on 40 byte headers. Options behind the header, on which it may
  panic, appear in C110 only.
  The table of protocol names is a parameter of the theorems. `NewPacket` with
  `gopacket.Default` copies its input.
* `net.SplitHostPort`. Name resolution is a parameter: theorems hold for every
  resolver that meets the stated hypotheses. For C106 the resolver handles numbers and literal addresses itself,
  like `netip.ParseAddr` and `net.LookupPort` of Go 1.23, and names are a parameter. Port numbers of 2^30 and more are
  errors, and `netip.Addr` is its bytes and its zone.
* Query strings of HTTP requests (`net/url`). The limit on the number of parameters
  is not modelled.
* `http.ServeMux` of Go 1.23 with "/" as its only pattern, `path.Clean` and `http.Redirect`, for C108. CONNECT requests are left
  out, the escaped path is the path in the request.
* `http.DetectContentType` of Go 1.23 and when it is called, for C109.
* The response writer of `net/http` in Go 1.23, for C111: how bodies are delimited. Connections that break, the text of the
  header and HTTP/2, which needs TLS, are left out.
* The growth of `bytes.Buffer` in Go 1.23, for C113. How the allocator rounds sizes up is a parameter.
* Sockets: system calls succeed or fail in any way. `net.FileConn` and
  `net.FileListener` duplicate the descriptor. An `os.File` may be finalized at any
  time from its creation on. This allows more than Go does.

### Assumed or left out

* Memory in `pkg/http` is sequentially consistent. This is what Go promises for
  programs without data races, and C86 shows that there are none.
* A `Write` may panic because the buffer cannot grow (`bytes.ErrTooLarge`); running out of memory in any other
  way ends the process and is not modelled.
* The HTTP server calls handlers in any number, at any time, concurrently. The mux
  is modelled as the registration of one pattern.
* Go strings, slices and arrays are finite lists. Sizes do not overflow `int`.
* Receivers are not nil, except in `Verif/CLC/Nil.lean`.
* The exported variables `SMCREyecatcher`, `SMCDEyecatcher` (pkg/clc/eyecatcher.go:6-9) and `SMCOption`
  (pkg/clc/tcp_option.go:9-12, the same array as `SMCREyecatcher`) keep their initial values, except in
  `Verif/CLC/Vars.lean` (C107).
* Goroutines that parse share arrays of bytes and nothing else (C97): no two calls have the same receiver. Package log
  writes every text as a whole; which texts of different goroutines come first is left open.
* On memory (`Verif/Heap.lean`), arrays are not reclaimed, and the slice
  `IPv6Prefixes` is a list whose elements hold references.

## What is false of the code

Each of these has a theorem with a witness, named `…_false` or by the exact
condition, and theorems about what does hold.

* **C01, C02, C09, C13** `ParseLLC` panics on every 44 byte message of type 8
  (Confirm RKey Continuation).
* **C18** Add Link keeps two stale bytes of a used value.
* **C20, C21** The texts of Add Link Continuation show only the second RKey pair;
  `Reserved()` of Add Link leaves out two bytes (`C20_exact`, `C21_exact`). **C75, C76** are
  false for the same reason, and of no other message (`C75_exact`, `C76_exact`). **C78, C79** are false for SMC-Dv2 messages of more than 114 bytes, exactly for
  those whose first contact extension says something (`C78_exact`, `C79_exact`).
* **C33** Complete Proposals can make `Parse` panic.
* **C43** Part of a version 1 Proposal can be read from behind the message (`C43_exact` says of which),
  and bytes behind a message can make its trailer be reported.
* **C44** The trailer is read from the end of the buffer, not of the message (`C44_exact`).
* **C45** Truncated messages make every parser panic.
* **C46** Values used before keep stale fields and accumulate prefixes.
* **C50** Different EIDs can have the same text (`C50_exact` says when: EIDs can only pass for other EIDs).
* **C56** The offset fields of version 2 Proposals are ignored.
* **C57** First contact extensions are ignored in messages of more than 114 bytes, but shown
  (`C57_exact`).
* **C63** The HTTP buffer loses writes between copy and reset.
* **C65** The second successful `StartServer` panics.
* **C69** Malformed addresses terminate the process.
* **C71** A finalizer can close a descriptor that belongs to someone else.
* **C101** `Dial` can connect, return and close a descriptor of someone else, after a finalizer left
  by an earlier call closed its socket.
* **C104** An EID with a line feed can look like a dump on the page.
* **C105** Overlapping `StartServer` calls can leave the server with a listener nobody serves.
* **C107** Writing to the bytes of `SMCOption` changes which messages are recognised.
* **C102** Such a finalizer can also close a connection that was returned before.
* **C83** (`C83_exact`) Error reports print memory behind the buffer, and truncated Proposals take
  fields from there, if the capacity allows.
* **C85** `String` and `Reserved` of nil Confirm messages panic.
* **C87** EIDs and host names are printed as they are, so a peer can put line feeds and
  other control characters into the texts of Proposal v2 and SMC-Dv2 messages.
* **C109** With control characters in these names the page is sent as binary data, which browsers do not show.
* **C111** A HEAD request with flush=true discards the page without sending it (`C111_exact`: no other request does).
* **C90** Two different Proposals can have the same `Reserved` text. **C91** Packets that
  carry Confirm RKey Continuation messages make the RoCE parsers panic.
* **C118** Two copies of a Proposal with three prefixes that are both parsed into again overwrite each other's fourth prefix.
* **C96** A panic can leave a number of three bytes read in part, or a zero address. Messages that have neither, nor lists,
  do not have this problem.

## Tests with wrong programs

`seeded/LOG.jsonl` has one line per attempt. Each changes one definition of the
model in a copy and builds everything but `Verif/Tests`. The changes are partly
chosen by hand and partly generated: constants, offsets, operators, comparisons,
texts and statements left out, at random places of every definition.

`failed` names what the build reported: often a lemma, after which the modules
that import it are not built. `claims_resting_on_failed` names the theorems of
the manifest whose proofs use what failed; they were not tried on their own. A
lemma can fail although no claim speaks about the changed behaviour, so the
statements of the claims were also evaluated on a fixed set of inputs under each
change; `noticed` lists the claims that were false there, where this was done.
