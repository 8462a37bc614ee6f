import Verif.Model.Tex
import Mathlib.Data.List.TakeWhile
import Verif.Lemmas.EosLemmas
import Verif.Model.Classes

/-!
C25, C26: the LaTeX check.
-/

set_option autoImplicit false

namespace Verif

/-- **C25 is false.** If the executable is missing, the check answers but leaves its temporary directory
behind; if it leaves no log file, the check raises `UnboundLocalError` (and leaves the directory too). -/
theorem C25_refuted :
    (testtex .missing true = (.ok ⟨true, none⟩, 1)) ∧
    (testtex (.ran 1 none) true = (.error .unboundLocal, 1)) := ⟨rfl, rfl⟩

/-- **C25, the part that holds.** The check raises only if the executable ran without leaving a log file;
in every other case it answers, the flag is true exactly if the executable is missing or returned zero,
and the directory is removed whenever the executable ran (with `delete`, the default). -/
theorem C25_partial (r : LatexRun) :
    ((∃ e, (testtex r true).1 = .error e) ↔ ∃ code, r = .ran code none) ∧
    (∀ res, (testtex r true).1 = .ok res →
      (res.success = true ↔ r = .missing ∨ ∃ log, r = .ran 0 log) ∧
      ((testtex r true).2 = 0 ↔ r ≠ .missing)) := by
  cases r with
  | missing => simp [testtex]
  | ran code log =>
    cases log with
    | none => simp [testtex]
    | some l => simp [testtex]

namespace Spec

/-- A line reporting one of the two errors. -/
def ErrorLine (l : String) : Prop :=
  "Undefined control sequence".toList <:+: l.toList ∨ "Emergency stop".toList <:+: l.toList

/-- A line with nothing but white space. -/
def BlankLine (l : String) : Prop := ∀ c ∈ l.toList, pySpace c = true

/-- `block` is the first error paragraph of `log`: lines up to the first error line are skipped, then all
lines before the next blank line (or the end) are taken. -/
def FirstErrorParagraph (log block : List String) : Prop :=
  ∃ pre e more post, log = pre ++ block ++ post ∧ block = e :: more ∧ (∀ l ∈ pre, ¬ ErrorLine l) ∧ ErrorLine e ∧
    (∀ l ∈ block, ¬ BlankLine l) ∧ ∀ l rest, post = l :: rest → BlankLine l

end Spec

open Spec

theorem isTexError_iff (l : String) : isTexError l = true ↔ ErrorLine l := by
  unfold isTexError ErrorLine
  rw [Bool.or_eq_true, contains_iff, contains_iff]

theorem isBlank_iff (l : String) : isBlank l = true ↔ BlankLine l := by
  simp [isBlank, BlankLine]

theorem texLoop_eq (logl : List String) : ∀ (n i : Nat) (acc : String) (hi : i < logl.length), logl.length - i = n →
    texLoop logl i logl[i] acc hi = acc ++ String.join ((logl.drop i).takeWhile fun l => !isBlank l) := by
  intro n
  induction n with
  | zero => intro i acc hi h; omega
  | succ n ih =>
    intro i acc hi h
    unfold texLoop
    rw [List.drop_eq_getElem_cons hi, List.takeWhile_cons]
    cases hb : isBlank logl[i] with
    | true => simp
    | false =>
      simp only [Bool.false_eq_true, if_false, Bool.not_false, if_true]
      split
      · rename_i h1
        rw [ih (i + 1) _ h1 (by omega)]
        simp [String.append_assoc]
      · rename_i h1
        rw [List.drop_eq_nil_of_le (by omega)]
        simp

/-- **C26.** The excerpt is the first error paragraph if there is an error line, and empty if there is
none. -/
theorem C26_excerpt (code : Int) (log : List String) (delete : Bool) :
    ∃ res, (testtex (.ran code (some log)) delete).1 = .ok res ∧
      ((∀ l ∈ log, ¬ ErrorLine l) → res.log = some "") ∧
      (∀ block, FirstErrorParagraph log block → res.log = some (String.join block)) := by
  refine ⟨_, rfl, ?_, ?_⟩
  · intro h
    dsimp only
    unfold texExcerpt
    rw [dif_neg]
    rw [List.findIdx_lt_length]
    rintro ⟨l, hl, he⟩
    exact h l hl ((isTexError_iff l).1 he)
  · rintro block ⟨pre, e, more, post, hlog, hblock, h1, h2, h3, h4⟩
    dsimp only
    have hidx : log.findIdx isTexError = pre.length := by
      rw [hlog, hblock, List.append_assoc, List.findIdx_append]
      have : ¬ pre.findIdx isTexError < pre.length := by
        rw [List.findIdx_lt_length]
        rintro ⟨l, hl, he⟩
        exact h1 l hl ((isTexError_iff l).1 he)
      rw [if_neg this]
      simp [List.findIdx_cons, (isTexError_iff e).2 h2]
    unfold texExcerpt
    have hlt : log.findIdx isTexError < log.length := by
      rw [hidx, hlog, hblock]; simp
    simp only [hlt, dite_true]
    rw [texLoop_eq log _ _ _ hlt rfl, hidx]
    have hd : log.drop pre.length = block ++ post := by rw [hlog]; simp
    rw [hd, List.takeWhile_append_of_pos]
    · have : post.takeWhile (fun l => !isBlank l) = [] := by
        cases post with
        | nil => rfl
        | cons l r => rw [List.takeWhile_cons, (isBlank_iff l).2 (h4 l r rfl)]; rfl
      rw [this]; simp
    · intro l hl
      cases hb : isBlank l with
      | true => exact absurd ((isBlank_iff l).1 hb) (h3 l hl)
      | false => rfl

/-- Every log with an error line has a first error paragraph, so one of the two cases above applies. -/
theorem C26_covers (log : List String) : (∀ l ∈ log, ¬ ErrorLine l) ∨ ∃ block, FirstErrorParagraph log block := by
  by_cases h : ∃ l ∈ log, ErrorLine l
  · right
    obtain ⟨l0, hl0, he0⟩ := h
    have hne : log.dropWhile (fun l => !isTexError l) ≠ [] := by
      intro h
      have := (List.dropWhile_eq_nil_iff (p := fun l => !isTexError l)).1 h l0 hl0
      simp [(isTexError_iff l0).2 he0] at this
    obtain ⟨e, more, hem⟩ := List.exists_cons_of_ne_nil hne
    have hee : isTexError e = true := by
      have := List.head_dropWhile_not (p := fun l => !isTexError l) (l := log) hne
      simpa [hem] using this
    have hnb : isBlank e = false := by
      cases hb : isBlank e with
      | false => rfl
      | true =>
        exfalso
        have hb := (isBlank_iff e).1 hb
        have hc : ('s' : Char) ∈ e.toList := by
          rcases (isTexError_iff e).1 hee with h | h
          · exact h.subset (by decide +kernel)
          · exact h.subset (by decide +kernel)
        have := hb _ hc
        revert this; decide +kernel
    refine ⟨(e :: more).takeWhile (fun l => !isBlank l), log.takeWhile (fun l => !isTexError l), e,
      more.takeWhile (fun l => !isBlank l), (e :: more).dropWhile (fun l => !isBlank l), ?_, ?_, ?_, ?_, ?_, ?_⟩
    · rw [List.append_assoc, List.takeWhile_append_dropWhile, ← hem, List.takeWhile_append_dropWhile]
    · rw [List.takeWhile_cons, hnb]; rfl
    · intro l hl he
      have := List.all_eq_true.1 (List.all_takeWhile (p := fun l => !isTexError l) (l := log)) _ hl
      simp [(isTexError_iff l).2 he] at this
    · exact (isTexError_iff e).1 hee
    · intro l hl hb
      have := List.all_eq_true.1 (List.all_takeWhile (p := fun l => !isBlank l) (l := e :: more)) _ hl
      simp [(isBlank_iff l).2 hb] at this
    · intro l rest h
      have hne' : (e :: more).dropWhile (fun l => !isBlank l) ≠ [] := by rw [h]; simp
      have := List.head_dropWhile_not (p := fun l => !isBlank l) (l := e :: more) hne'
      simp only [h, List.head_cons] at this
      exact (isBlank_iff l).1 (by simpa using this)
  · left
    intro l hl he
    exact h ⟨l, hl, he⟩

/-- The log of the example above. -/
example : FirstErrorParagraph ["ok\n", "! Undefined control sequence.\n", "l.4 $\\foo\n", "\n", "more\n"]
    ["! Undefined control sequence.\n", "l.4 $\\foo\n"] := by
  refine ⟨["ok\n"], _, _, ["\n", "more\n"], rfl, rfl, ?_, ?_, ?_, ?_⟩
  · simp only [List.mem_singleton, forall_eq]; rw [← isTexError_iff]; decide +kernel
  · rw [← isTexError_iff]; decide +kernel
  · intro l hl; rw [← isBlank_iff]; revert l hl; decide +kernel
  · intro l rest h; simp only [List.cons.injEq] at h; rw [← isBlank_iff, ← h.1]; decide +kernel

/-- A run that fails with that log. -/
example : ∃ res, (testtex (.ran 1 (some ["ok\n", "! Undefined control sequence.\n", "l.4 $\\foo\n", "\n", "more\n"]))
    true).1 = .ok res ∧ res.success = false ∧ ∀ block,
      FirstErrorParagraph ["ok\n", "! Undefined control sequence.\n", "l.4 $\\foo\n", "\n", "more\n"] block →
      res.log = some (String.join block) := by
  obtain ⟨res, h1, _, h3⟩ := C26_excerpt 1
    ["ok\n", "! Undefined control sequence.\n", "l.4 $\\foo\n", "\n", "more\n"] true
  refine ⟨res, h1, ?_, h3⟩
  simp only [testtex, Except.ok.injEq] at h1
  rw [← h1]; rfl

end Verif
