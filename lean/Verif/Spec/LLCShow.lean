import Verif.Spec.Show
import Verif.Spec.LLC
/-!
# The texts of LLC and CDC messages

The fields of each message in wire order, reserved ones included, with their labels. `Reserved()`
is meant to show all of them, `String()` all but the reserved ones. Positions are those of
`Verif/Spec/LLC.lean`; nothing of the model but the names of the kinds is used.
-/

namespace SMC.Spec

/-- reasons of an Add Link rejection -/
def addLinkReasons : List (Nat × Bytes) :=
  [(1, go! "no alternate path available"), (2, go! "invalid MTU value specified")]

/-- queue pair MTUs -/
def mtus : List (Nat × Bytes) :=
  [(1, go! "256"), (2, go! "512"), (3, go! "1024"), (4, go! "2048"), (5, go! "4096")]

/-- reasons of a Delete Link -/
def deleteLinkReasons : List (Nat × Bytes) :=
  [(0x10000, go! "Lost path"), (0x20000, go! "Operator initiated termination"),
   (0x30000, go! "Program initiated termination (link inactivity)"), (0x40000, go! "LLC protocol violation"),
   (0x50000, go! "Asymmetric link no longer needed"), (0x100000, go! "Unknown link ID (no link)")]

/-- several values in square brackets -/
def bracketed (is : List Item) : Bytes := go! "[" ++ row is ++ go! "]"

/-- the RKey pair at byte `k` -/
def pairText (bs : Bytes) (k : Nat) : Bytes :=
  bracketed [field (go! "Reference RKey") (decimal (num bs k 0 32)), field (go! "New RKey") (decimal (num bs (k + 4) 0 32)),
    field (go! "New Virtual Address") (hexadecimal (num bs (k + 8) 0 64))]

/-- the RMB at byte `k` -/
def rmbText (bs : Bytes) (k : Nat) : Bytes :=
  bracketed [field (go! "Link") (decimal (num bs k 0 8)), field (go! "RKey") (decimal (num bs (k + 1) 0 32)),
    field (go! "Virtual Address") (hexadecimal (num bs (k + 5) 0 64))]

/-- type and length of every message -/
def headItems (bs : Bytes) : List Item :=
  [field (go! "Type") (decimal (num bs 0 0 8)), field (go! "Length") (decimal (num bs 1 0 8))]

/-- the fields of a message. Oddities of the texts: no colon after `Type` of a Test Link and
after `Length` of a CDC message; Add Link shows two zero bytes behind the message; Confirm RKey
Continuation shows the byte behind the message. -/
def llcItems (bs : Bytes) : Kind → List Item
  | .other => []
  | .confirmLink => headItems bs ++
    [rsvd (hexadecimal (num bs 2 0 8)), field (go! "Reply") (truth (flag bs 3 0)), rsvd (hexadecimal (num bs 3 1 7)),
     field (go! "Sender MAC") (hardware (raw bs 4 6)), field (go! "Sender GID") (address (raw bs 10 16)),
     field (go! "Sender QP") (decimal (num bs 26 0 24)), field (go! "Link") (decimal (num bs 29 0 8)),
     field (go! "Sender Link UserID") (decimal (num bs 30 0 32)), field (go! "Max Links") (decimal (num bs 34 0 8)),
     rsvd (octets (raw bs 35 9))]
  | .addLink => headItems bs ++
    [rsvd (hexadecimal (num bs 2 0 4)),
     field (go! "Reason Code") (named addLinkReasons (go! "unknown") (num bs 2 4 4)),
     field (go! "Reply") (truth (flag bs 3 0)), field (go! "Rejection") (truth (flag bs 3 1)),
     rsvd (hexadecimal (num bs 3 2 6)), field (go! "Sender MAC") (hardware (raw bs 4 6)), rsvd (octets (raw bs 10 2)),
     field (go! "Sender GID") (address (raw bs 12 16)), field (go! "Sender QP") (decimal (num bs 28 0 24)),
     field (go! "Link") (decimal (num bs 31 0 8)), rsvd (hexadecimal (num bs 32 0 4)),
     field (go! "MTU") (named mtus (go! "reserved") (num bs 32 4 4)),
     field (go! "Initial PSN") (decimal (num bs 33 0 24)), rsvd (octets (raw bs 36 8 ++ [0, 0]))]
  | .addLinkCont => headItems bs ++
    [rsvd (hexadecimal (num bs 2 0 8)), field (go! "Reply") (truth (flag bs 3 0)), rsvd (hexadecimal (num bs 3 1 7)),
     field (go! "Link") (decimal (num bs 4 0 8)), field (go! "Number of RTokens") (decimal (num bs 5 0 8)),
     rsvd (octets (raw bs 6 2)), field (go! "RKey Pair 1") (pairText bs 8), field (go! "RKey Pair 2") (pairText bs 24),
     rsvd (octets (raw bs 40 4))]
  | .deleteLink => headItems bs ++
    [rsvd (hexadecimal (num bs 2 0 8)), field (go! "Reply") (truth (flag bs 3 0)), field (go! "All") (truth (flag bs 3 1)),
     field (go! "Orderly") (truth (flag bs 3 2)), rsvd (hexadecimal (num bs 3 3 5)),
     field (go! "Link") (decimal (num bs 4 0 8)),
     field (go! "Reason Code") (named deleteLinkReasons (go! "unknown") (num bs 5 0 32)), rsvd (octets (raw bs 9 35))]
  | .confirmRKey => headItems bs ++
    [rsvd (hexadecimal (num bs 2 0 8)), field (go! "Reply") (truth (flag bs 3 0)), rsvd (hexadecimal (num bs 3 1 1)),
     field (go! "Negative Response") (truth (flag bs 3 2)), field (go! "Configuration Retry") (truth (flag bs 3 3)),
     rsvd (hexadecimal (num bs 3 4 4)), field (go! "Number of Tokens") (decimal (num bs 4 0 8)),
     field (go! "This RKey") (decimal (num bs 5 0 32)), field (go! "This VAddr") (hexadecimal (num bs 9 0 64)),
     field (go! "Other Link RMB 1") (rmbText bs 17), field (go! "Other Link RMB 2") (rmbText bs 30),
     rsvd (hexadecimal (num bs 43 0 8))]
  | .confirmRKeyCont => headItems bs ++
    [rsvd (hexadecimal (num bs 2 0 8)), field (go! "Reply") (truth (flag bs 3 0)), rsvd (hexadecimal (num bs 3 1 1)),
     field (go! "Negative Response") (truth (flag bs 3 2)), rsvd (hexadecimal (num bs 3 3 5)),
     field (go! "Number of Tokens") (decimal (num bs 4 0 8)), field (go! "Other Link RMB 1") (rmbText bs 5),
     field (go! "Other Link RMB 2") (rmbText bs 18), field (go! "Other Link RMB 3") (rmbText bs 31),
     rsvd (hexadecimal (num bs 44 0 8))]
  | .deleteRKey => headItems bs ++
    [rsvd (hexadecimal (num bs 2 0 8)), field (go! "Reply") (truth (flag bs 3 0)), rsvd (hexadecimal (num bs 3 1 1)),
     field (go! "Negative Response") (truth (flag bs 3 2)), rsvd (hexadecimal (num bs 3 3 5)),
     field (go! "Count") (decimal (num bs 4 0 8)), field (go! "Error Mask") (binary (num bs 5 0 8)),
     rsvd (octets (raw bs 6 2))] ++
    (List.range 8).map (fun i => field (go! "RKey " ++ decimal i) (decimal (num bs (8 + 4 * i) 0 32))) ++
    [rsvd (octets (raw bs 40 4))]
  | .testLink =>
    [{ field (go! "Type") (decimal (num bs 0 0 8)) with sep := go! " " }, field (go! "Length") (decimal (num bs 1 0 8)),
     rsvd (hexadecimal (num bs 2 0 8)), field (go! "Reply") (truth (flag bs 3 0)), rsvd (hexadecimal (num bs 3 1 7)),
     field (go! "User Data") (octets (raw bs 4 16)), rsvd (octets (raw bs 20 24))]
  | .cdc =>
    [field (go! "Type") (decimal (num bs 0 0 8)), { field (go! "Length") (decimal (num bs 1 0 8)) with sep := go! " " },
     field (go! "Sequence Number") (decimal (num bs 2 0 16)), field (go! "Alert Token") (decimal (num bs 4 0 32)),
     rsvd (octets (raw bs 8 2)), field (go! "Producer Wrap") (decimal (num bs 10 0 16)),
     field (go! "Producer Cursor") (decimal (num bs 12 0 32)), rsvd (octets (raw bs 16 2)),
     field (go! "Consumer Wrap") (decimal (num bs 18 0 16)), field (go! "Consumer Cursor") (decimal (num bs 20 0 32)),
     field (go! "Writer Blocked") (truth (flag bs 24 0)), field (go! "Urgent Data Pending") (truth (flag bs 24 1)),
     field (go! "Urgent Data Present") (truth (flag bs 24 2)),
     field (go! "Request for Consumer Cursor Update") (truth (flag bs 24 3)),
     field (go! "Failover Validation") (truth (flag bs 24 4)), rsvd (hexadecimal (num bs 24 5 3)),
     field (go! "Sending Done") (truth (flag bs 25 0)), field (go! "Peer Connection Closed") (truth (flag bs 25 1)),
     field (go! "Abnormal Close") (truth (flag bs 25 2)),
     rsvd (octets (UInt8.ofNat (num bs 25 3 5) :: raw bs 26 18))]

/-- the heading of a message -/
def llcHeading : Kind → Bytes
  | .other => go! "Other Payload"
  | .confirmLink => go! "LLC Confirm Link"
  | .addLink => go! "LLC Add Link"
  | .addLinkCont => go! "LLC Add Link Continuation"
  | .deleteLink => go! "LLC Delete Link"
  | .confirmRKey => go! "LLC Confirm RKey"
  | .confirmRKeyCont => go! "LLC Confirm RKey Continuation"
  | .deleteRKey => go! "LLC Delete RKey"
  | .testLink => go! "LLC Test Link"
  | .cdc => go! "CDC"

/-- the text of a message of some kind that shows the given fields; other payloads show none -/
def llcLine (k : Kind) (is : List Item) : Bytes :=
  if k = .other then llcHeading k ++ go! "\n" else line (llcHeading k) is

/-- what `String()` is meant to return -/
def llcString (bs : Bytes) (k : Kind) : Bytes := llcLine k (visibleItems (llcItems bs k))

/-- what `Reserved()` is meant to return -/
def llcReserved (bs : Bytes) (k : Kind) : Bytes := llcLine k (llcItems bs k)

/-- the fields without the ninth: the two reserved bytes between MAC and GID of an Add Link,
and the first RKey pair of an Add Link Continuation -/
def withoutNinth (is : List Item) : List Item := is.eraseIdx 8

#guard ((llcItems [] .addLink)[8]?).map (·.label) = some (go! "Reserved")
#guard ((llcItems [] .addLinkCont)[8]?).map (·.label) = some (go! "RKey Pair 1")

end SMC.Spec
