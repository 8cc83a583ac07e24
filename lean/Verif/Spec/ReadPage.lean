import Verif.Spec.Dump
/-!
# Reading a page with texts and hex dumps

What a reader does who wants the messages back from a page on which texts of one line and hex
dumps follow one another; nothing here refers to the model of `hex.Dump`.
-/

namespace SMC.Spec

/-- the digits of a dump -/
def isDumpDigit (c : UInt8) : Bool := (48 ≤ c && c ≤ 57) || (97 ≤ c && c ≤ 102)

/-- A line that looks like one of a dump: eight digits and two blanks. -/
def isRow (l : Bytes) : Bool :=
  (l.take 8).length = 8 && (l.take 8).all isDumpDigit && (l.drop 8).take 2 = [32, 32]

/-- The offset of the line is zero: it is the first one of a dump. -/
def isFirstRow (l : Bytes) : Bool := l.take 8 = List.replicate 8 48

/-- What can be on the page: a text, without its line feed, or the dump of some bytes. -/
inductive Entry where
  | text (t : Bytes)
  | dump (bs : Bytes)
deriving DecidableEq, Repr

/-- The items of a page, from its lines: lines that look like lines of a dump are put together up to
the next one with offset zero. -/
def readEntries : List Bytes → List Entry
  | [] => []
  | l :: ls =>
    if isRow l then
      match readEntries ls with
      | .dump bs :: r =>
        if ls.head?.any isFirstRow then .dump (undumpLine l) :: .dump bs :: r
        else .dump (undumpLine l ++ bs) :: r
      | r => .dump (undumpLine l) :: r
    else .text l :: readEntries ls

/-- The items of a page. -/
def readPage (w : Bytes) : List Entry := readEntries (lines w)

#guard readPage (go! "00000000  61 62 7c 00 ff                                    |ab|..|\nCDC: x\n") =
  [.dump (hex! "61 62 7c 00 ff"), .text (go! "CDC: x")]

/-- An item that can be recognised: a text is one line that does not look like one of a dump; a dump
is of at least one byte and no longer than offsets of eight digits allow. -/
def Entry.Plain : Entry → Prop
  | .text t => 10 ∉ t ∧ isRow t = false
  | .dump bs => bs ≠ [] ∧ bs.length ≤ 2 ^ 32

end SMC.Spec
