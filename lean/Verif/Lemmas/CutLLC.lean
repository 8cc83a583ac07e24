import Verif.Lemmas.Cut
/-!
# The values of the fields of LLC messages and BTH after a crash
-/

namespace SMC.Tail
open SGo Left LLC

theorem confirmLink_between {m s' m' : ConfirmLink} {short long : Slice} {l l' : List Bytes} (h : Part short long)
    (hs : ConfirmLink.parseS short m = (.panic l, s')) (hl : m.parse long = .ret l' m') :
    Between confirmLinkWays (confirmLink m) (confirmLink m') (confirmLink s') := by
  rw [← ConfirmLink.final_parseS] at hl
  unfold ConfirmLink.parseS at hs hl
  rw [within_setBaseMsgS] at hs hl
  · refine cut_whole (V := confirmLinkView) h ?_ hs hl
    repeat cut_step
    cut_root h
    repeat cut_step
    cut_end
  all_goals (intros; rfl)

theorem addLink_between {m s' m' : AddLink} {short long : Slice} {l l' : List Bytes} (h : Part short long)
    (hs : AddLink.parseS short m = (.panic l, s')) (hl : m.parse long = .ret l' m') :
    Between addLinkWays (addLink m) (addLink m') (addLink s') := by
  rw [← AddLink.final_parseS] at hl
  unfold AddLink.parseS at hs hl
  rw [within_setBaseMsgS] at hs hl
  · refine cut_whole (V := addLinkView) h ?_ hs hl
    repeat cut_step
    cut_root h
    repeat cut_step
    cut_end
  all_goals (intros; rfl)

theorem deleteLink_between {m s' m' : DeleteLink} {short long : Slice} {l l' : List Bytes} (h : Part short long)
    (hs : DeleteLink.parseS short m = (.panic l, s')) (hl : m.parse long = .ret l' m') :
    Between [] (deleteLink m) (deleteLink m') (deleteLink s') := by
  rw [← DeleteLink.final_parseS] at hl
  unfold DeleteLink.parseS at hs hl
  rw [within_setBaseMsgS] at hs hl
  · refine cut_whole (V := deleteLinkView) h ?_ hs hl
    repeat cut_step
    cut_root h
    repeat cut_step
    cut_end
  all_goals (intros; rfl)

theorem testLink_between {m s' m' : TestLink} {short long : Slice} {l l' : List Bytes} (h : Part short long)
    (hs : TestLink.parseS short m = (.panic l, s')) (hl : m.parse long = .ret l' m') :
    Between [] (testLink m) (testLink m') (testLink s') := by
  rw [← TestLink.final_parseS] at hl
  unfold TestLink.parseS at hs hl
  rw [within_setBaseMsgS] at hs hl
  · refine cut_whole (V := testLinkView) h ?_ hs hl
    repeat cut_step
    cut_root h
    repeat cut_step
    cut_end
  all_goals (intros; rfl)

theorem cdc_between {m s' m' : CDC} {short long : Slice} {l l' : List Bytes} (h : Part short long)
    (hs : CDC.parseS short m = (.panic l, s')) (hl : m.parse long = .ret l' m') :
    Between [] (cdc m) (cdc m') (cdc s') := by
  rw [← CDC.final_parseS] at hl
  unfold CDC.parseS at hs hl
  refine cut_whole (V := cdcView) h ?_ hs hl
  repeat cut_step

open RoCE in
theorem bth_between {m s' m' : BTH} {short long : Slice} {l l' : List Bytes} (h : Part short long)
    (hs : BTH.parseS short m = (.panic l, s')) (hl : m.parse long = .ret l' m') :
    Between bthWays (bth m) (bth m') (bth s') := by
  rw [← BTH.final_parseS] at hl
  unfold BTH.parseS at hs hl
  refine cut_whole (V := bthView) h ?_ hs hl
  repeat cut_step

end SMC.Tail
