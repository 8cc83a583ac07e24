import Verif.Props.LLCText
/-!
# C20 and C21: exactly what the texts of LLC and CDC messages show
-/

namespace SMC.Props

open SMC Spec LLC

/-- the fields that get into the text of `String`: not the first RKey pair of Add Link Continuation -/
def stringShows : Msg → Msg
  | .addLinkCont m => visible (.addLinkCont { m with RKeyPairs := {} :: m.RKeyPairs.drop 1 })
  | m => visible m

/-- the fields that get into the text of `Reserved`: neither that pair nor two reserved bytes of Add Link -/
def reservedShows : Msg → Msg
  | .addLinkCont m => decoded (.addLinkCont { m with RKeyPairs := {} :: m.RKeyPairs.drop 1 })
  | .addLink m => decoded (.addLink { m with res5 := [] })
  | m => decoded m

theorem string_of_shows (m : Msg) (hs : SizedMsg m) : (stringShows m).string = m.string := by
  cases m <;> try rfl
  case addLinkCont m =>
    obtain ⟨r₁, r₂, hr⟩ := list2 (show SizedAddLinkCont m from hs).2.1
    cases m
    cases hr
    rfl

theorem reserved_of_shows (m : Msg) (hs : SizedMsg m) : (reservedShows m).reserved = m.reserved := by
  cases m <;> try rfl
  case addLinkCont m =>
    obtain ⟨r₁, r₂, hr⟩ := list2 (show SizedAddLinkCont m from hs).2.1
    cases m
    cases hr
    rfl

theorem addLinkCont_kind {m : Msg} (h : kindOf m = .addLinkCont) : ∃ a, m = .addLinkCont a := by
  cases m <;> first | exact ⟨_, rfl⟩ | cases h

theorem addLink_kind {m : Msg} (h : kindOf m = .addLink) : ∃ a, m = .addLink a := by
  cases m <;> first | exact ⟨_, rfl⟩ | cases h

theorem stringShows_of {m : Msg} (h : kindOf m ≠ .addLinkCont) : stringShows m = visible m := by
  cases m <;> first | rfl | exact absurd rfl h

theorem reservedShows_of {m : Msg} (h : kindOf m ≠ .addLinkCont) (h' : kindOf m ≠ .addLink) : reservedShows m = decoded m := by
  cases m <;> first | rfl | exact absurd rfl h | exact absurd rfl h'

/-- C20, the exact condition: two messages of one type have the same text if and only if they agree on every field that is
not reserved, except the first RKey pair of Add Link Continuation. -/
theorem C20_exact (m m' : Msg) (hk : kindOf m = kindOf m') (ho : kindOf m ≠ .other) (hs : SizedMsg m) (hs' : SizedMsg m')
    (hg : SizedGID m) (hg' : SizedGID m') : m.string = m'.string ↔ stringShows m = stringShows m' := by
  constructor
  · intro h
    by_cases hac : kindOf m = .addLinkCont
    · obtain ⟨a, rfl⟩ := addLinkCont_kind hac
      obtain ⟨b, rfl⟩ := addLinkCont_kind (hk.symm.trans hac)
      have := C20_addLinkCont_partial a b hs hs' h
      simp only [visible, stringShows, Msg.addLinkCont.injEq, AddLinkCont.mk.injEq] at this ⊢
      simp only [this, and_self]
    · have := C20_string_partial m m' hk ho hac hs hs' hg hg' h
      have hac' : kindOf m' ≠ .addLinkCont := hk ▸ hac
      rw [stringShows_of hac, stringShows_of hac', this]
  · intro h
    rw [← string_of_shows m hs, ← string_of_shows m' hs', h]

/-- C21, the exact condition: two messages of one type have the same text if and only if they agree on every field,
except the first RKey pair of Add Link Continuation and two reserved bytes of Add Link. -/
theorem C21_exact (m m' : Msg) (hk : kindOf m = kindOf m') (ho : kindOf m ≠ .other) (hs : SizedMsg m) (hs' : SizedMsg m')
    (hg : SizedGID m) (hg' : SizedGID m') : m.reserved = m'.reserved ↔ reservedShows m = reservedShows m' := by
  constructor
  · intro h
    by_cases hac : kindOf m = .addLinkCont
    · obtain ⟨a, rfl⟩ := addLinkCont_kind hac
      obtain ⟨b, rfl⟩ := addLinkCont_kind (hk.symm.trans hac)
      have := C21_addLinkCont_partial a b hs hs' h
      simp only [decoded, reservedShows, Msg.addLinkCont.injEq, AddLinkCont.mk.injEq] at this ⊢
      simp only [this, and_self]
    by_cases hal : kindOf m = .addLink
    · obtain ⟨a, rfl⟩ := addLink_kind hal
      obtain ⟨b, rfl⟩ := addLink_kind (hk.symm.trans hal)
      exact C21_addLink_partial a b hg hg' h
    · have := C21_reserved_partial m m' hk ho hac hal hs hs' hg hg' h
      have hac' : kindOf m' ≠ .addLinkCont := hk ▸ hac
      have hal' : kindOf m' ≠ .addLink := hk ▸ hal
      rw [reservedShows_of hac hal, reservedShows_of hac' hal', this]
  · intro h
    rw [← reserved_of_shows m hs, ← reserved_of_shows m' hs', h]

/-- the texts of two messages that differ, and of two that differ in what is not shown -/
example : let a : Msg := .addLinkCont { Link := 1, RKeyPairs := [{ NewRKey := 1 }, { NewRKey := 2 }] }
    let b : Msg := .addLinkCont { Link := 1, RKeyPairs := [{ NewRKey := 7 }, { NewRKey := 2 }] }
    let c : Msg := .addLinkCont { Link := 1, RKeyPairs := [{ NewRKey := 1 }, { NewRKey := 3 }] }
    SizedMsg a ∧ SizedMsg b ∧ SizedMsg c ∧ visible a ≠ visible b ∧ stringShows a = stringShows b ∧
      stringShows a ≠ stringShows c :=
  ⟨⟨rfl, rfl, rfl⟩, ⟨rfl, rfl, rfl⟩, ⟨rfl, rfl, rfl⟩, by decide, rfl, by decide⟩

example : let a : Msg := .addLink { res5 := [1, 2] }
    let b : Msg := .addLink { res5 := [3, 4] }
    SizedMsg a ∧ SizedMsg b ∧ decoded a ≠ decoded b ∧ reservedShows a = reservedShows b :=
  ⟨⟨rfl, rfl⟩, ⟨rfl, rfl⟩, by decide, rfl⟩

end SMC.Props
