import Verif.Props.Smeftsim
import Verif.Lemmas.SmeftsimChars
import Verif.Spec.Lha

/-!
C68: what the choice of the input scheme changes in the SMEFTsim parameter card.
-/

set_option autoImplicit false

namespace Verif

open Spec

/-! ### Entries of the texts -/

/-- The entries of a text written from lines. -/
theorem lhaEntries_lines {ls : List (List Char)} (h : ∀ l ∈ ls, '\n' ∉ l) (h0 : ls ≠ []) :
    lhaEntries ("\n".intercalate (ls.map String.ofList)) = lhaLines [] ls := by
  unfold lhaEntries
  rw [String.toList_intercalate]
  have : "\n".toList = ['\n'] := by decide
  rw [this, List.map_map]
  have hid : ls.map (String.toList ∘ String.ofList) = ls := by
    conv_rhs => rw [← List.map_id ls]
    exact List.map_congr_left fun l _ => String.toList_ofList
  rw [hid, List.splitOn_intercalate _ h h0]

theorem lines_plain (m : ModelSet) (s : Scheme) :
    ((charLines m s).1 ++ (charLines m s).2).all (fun l => decide ('\n' ∉ l)) = true ∧
    (charLines m s).1 ≠ [] ∧ (charLines m s).2 ≠ [] := by
  cases m <;> cases s <;> decide +kernel

/-- The entries of the two texts. -/
theorem text_entries (m : ModelSet) (s : Scheme) : ∃ p q, cardText m s = .ok (p, q) ∧
    lhaEntries p = lhaLines [] (charLines m s).1 ∧ lhaEntries q = lhaLines [] (charLines m s).2 ∧
    q = "\n".intercalate ((charLines m s).2.map String.ofList) := by
  obtain ⟨hp, h1, h2⟩ := lines_plain m s
  have hp := List.all_eq_true.1 hp
  simp only [decide_eq_true_eq] at hp
  unfold cardText
  rw [cardLines_chars]
  exact ⟨_, _, rfl, lhaEntries_lines (fun l hl => hp l (List.mem_append_left _ hl)) h1,
    lhaEntries_lines (fun l hl => hp l (List.mem_append_right _ hl)) h2, rfl⟩

/-! ### Places -/

/-- Block and address. -/
abbrev Place := List (List Char) × List (List Char)

/-- `MASS` -/
def massBlock : List (List Char) := [['M', 'A', 'S', 'S']]

/-- The masses of the W boson, its ghosts and its Goldstone boson. -/
def wMasses : List Place :=
  [(massBlock, [['2', '4']]), (massBlock, [['9', '0', '0', '0', '0', '0', '3']]), (massBlock, [['9', '0', '0', '0', '0', '0', '4']]),
   (massBlock, [['2', '5', '1']])]

/-- The electromagnetic coupling (`aEW` or `aEWM1`) is entry 1 of `SMINPUTS`. -/
def aEW : Place := ([['S', 'M', 'I', 'N', 'P', 'U', 'T', 'S']], [['1']])
/-- The strong coupling `aS` is entry 3 of `SMINPUTS`. -/
def aS : Place := ([['S', 'M', 'I', 'N', 'P', 'U', 'T', 'S']], [['3']])

/-- The entries except those at given places. -/
def without (l : List Place) (es : List LhaEntry) : List LhaEntry := es.filter fun e => decide ((e.1, e.2.1) ∉ l)

/-- The values at a place. -/
def valuesAt (a : Place) (es : List LhaEntry) : List (List Char) := (es.filter fun e => decide ((e.1, e.2.1) = a)).map fun e => e.2.2

/-- The places at which the preambles of a set differ. -/
def changed : ModelSet → List Place
  | .A => aEW :: wMasses
  | .B => aS :: aEW :: wMasses

theorem scheme_same (m : ModelSet) : without (changed m) (lhaLines [] (charLines m .alpha).1) =
    without (changed m) (lhaLines [] (charLines m .mw).1) := by cases m <;> decide +kernel

theorem scheme_aS : valuesAt aS (lhaLines [] (charLines .B .alpha).1) = ["1.181000e-01".toList] ∧
    valuesAt aS (lhaLines [] (charLines .B .mw).1) = ["1.185000e-01".toList] := by decide +kernel

theorem scheme_aEW (m : ModelSet) : valuesAt aEW (lhaLines [] (charLines m .mw).1) = [] ∧
    valuesAt aEW (lhaLines [] (charLines m .alpha).1) = [(match m with | .A => "7.815553e-03" | .B => "1.279000e+02").toList] := by
  cases m <;> decide +kernel

theorem scheme_mw (m : ModelSet) : ∀ a ∈ wMasses, (valuesAt a (lhaLines [] (charLines m .mw).1) = ["80.387000".toList] ∨
    valuesAt a (lhaLines [] (charLines m .mw).1) = ["8.038700e+01".toList]) ∧
    (valuesAt a (lhaLines [] (charLines m .alpha).1)).length = 1 := by
  cases m <;> decide +kernel

theorem text_places (m : ModelSet) (s : Scheme) :
    ((lhaLines [] (charLines m s).1 ++ lhaLines [] (charLines m s).2).map fun e => (e.1, e.2.1)).Nodup := by
  cases m <;> cases s <;> decide +kernel

theorem text_blocks (m : ModelSet) (s : Scheme) : ∀ e ∈ lhaLines [] (charLines m s).1 ++ lhaLines [] (charLines m s).2,
    ∀ b ∈ Dict.keys (initializeCard m), String.ofList (e.1.headD [] |>.map Char.toLower) ≠ lower b := by
  cases m <;> cases s <;> decide +kernel

/-! ### C68 -/

/-- C68 refuted: in set B the choice of the W mass as input also changes the strong coupling. -/
theorem C68_refuted : ∃ p q p' q', cardText .B .alpha = .ok (p, q) ∧ cardText .B .mw = .ok (p', q') ∧
    valuesAt aS (lhaEntries p) = ["1.181000e-01".toList] ∧ valuesAt aS (lhaEntries p') = ["1.185000e-01".toList] := by
  obtain ⟨p, q, h, h1, -⟩ := text_entries .B .alpha
  obtain ⟨p', q', h', h1', -⟩ := text_entries .B .mw
  exact ⟨p, q, p', q', h, h', by rw [h1]; exact scheme_aS.1, by rw [h1']; exact scheme_aS.2⟩

/-- C68, the part that holds for the texts: the schemes differ only in `aEW` (absent if the W mass is the input), the W masses (all equal to
80.387 then), and in set B the strong coupling. -/
theorem C68_partial (m : ModelSet) : ∃ p p' q, cardText m .alpha = .ok (p, q) ∧ cardText m .mw = .ok (p', q) ∧
    without (changed m) (lhaEntries p) = without (changed m) (lhaEntries p') ∧
    (valuesAt aEW (lhaEntries p)).length = 1 ∧ valuesAt aEW (lhaEntries p') = [] ∧
    ∀ a ∈ wMasses, (valuesAt a (lhaEntries p)).length = 1 ∧
      (valuesAt a (lhaEntries p') = ["80.387000".toList] ∨ valuesAt a (lhaEntries p') = ["8.038700e+01".toList]) := by
  obtain ⟨p, q, h, h1, -, hq⟩ := text_entries m .alpha
  obtain ⟨p', q', h', h1', -, hq'⟩ := text_entries m .mw
  have hqq : q' = q := by rw [hq, hq']; cases m <;> rfl
  refine ⟨p, p', q, h, by rw [← hqq]; exact h', by rw [h1, h1']; exact scheme_same m, ?_, ?_, ?_⟩
  · rw [h1, (scheme_aEW m).2]; rfl
  · rw [h1']; exact (scheme_aEW m).1
  · intro a ha
    rw [h1, h1']
    exact ⟨(scheme_mw m a ha).2, (scheme_mw m a ha).1⟩

/-- C68, the part that holds for the coefficients: the filled cards of the two schemes have the same entries, except for the W mass in
set A. -/
theorem C68_partial_card (m : ModelSet) (d : Dict String CNum) (lam : ℝ) {c c' : Card}
    (h : cardFill (initializeCard m) d m lam .alpha = .ok c) (h' : cardFill (initializeCard m) d m lam .mw = .ok c')
    (p : String × CEntry) : InCard c' p ↔ InCard c p ∨ (m = .A ∧ p = ("FRBlock", ⟨[1475], .float 80.387, "# MW0"⟩)) := by
  obtain ⟨-, rfl⟩ := fill_inv h
  obtain ⟨-, rfl⟩ := fill_inv h'
  rw [inCard_iff, inCard_iff]
  obtain ⟨b, e⟩ := p
  cases m with
  | B => simp [mwRows]
  | A => simp [mwRows, mwRow]

/-- No entry of the texts occurs twice, and none is in a block of the filled card: the whole card has no place twice. -/
theorem C55_texts {m : ModelSet} {s : Scheme} {p q : String} (h : cardText m s = .ok (p, q)) :
    ((lhaEntries p ++ lhaEntries q).map fun e => (e.1, e.2.1)).Nodup ∧
    ∀ e ∈ lhaEntries p ++ lhaEntries q, ∀ b ∈ Dict.keys (initializeCard m),
      String.ofList (e.1.headD [] |>.map Char.toLower) ≠ lower b := by
  obtain ⟨p', q', h', h1, h2, -⟩ := text_entries m s
  rw [h] at h'
  cases h'
  rw [h1, h2]
  exact ⟨text_places m s, text_blocks m s⟩

end Verif
