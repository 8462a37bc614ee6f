import Verif.Model.Eos
import Verif.Spec.Eos

set_option autoImplicit false

namespace Verif
open Spec

theorem takeWhile_body {body rest : List Char} (hb : '}' ∉ body) :
    (body ++ '}' :: rest).takeWhile (· ≠ '}') = body ∧
    (body ++ '}' :: rest).dropWhile (· ≠ '}') = '}' :: rest := by
  induction body with
  | nil => simp
  | cons c b ih =>
    have hc : c ≠ '}' := fun h => hb (by simp [h])
    have := ih (fun h => hb (by simp [h]))
    simp only [List.cons_append, List.takeWhile_cons, List.dropWhile_cons]
    simpa [hc] using this

theorem matchTag_some {tag s body rest : List Char} :
    matchTag tag s = some (body, rest) ↔ body ≠ [] ∧ '}' ∉ body ∧ s = tag ++ (body ++ '}' :: rest) := by
  constructor
  · intro h
    unfold matchTag at h
    split at h
    · rename_i hp
      obtain ⟨t, rfl⟩ := hp
      simp only [List.drop_left] at h
      split at h
      · rename_i hbr
        simp only [Option.some.injEq, Prod.mk.injEq] at h
        obtain ⟨h1, h2⟩ := h
        have hnot : '}' ∉ body := by
          intro hm; rw [← h1] at hm
          have := List.all_eq_true.1 (List.all_takeWhile (p := fun c => decide (c ≠ '}')) (l := t)) _ hm
          simp at this
        refine ⟨by rw [← h1]; exact hbr.1, hnot, ?_⟩
        congr 1
        obtain ⟨x, xs, hx⟩ := List.exists_cons_of_ne_nil hbr.2
        have hhead : x = '}' := by
          have := List.head_dropWhile_not (p := fun c => decide (c ≠ '}')) (l := t) (by rw [hx]; simp)
          simp only [hx, List.head_cons] at this
          simpa using this
        rw [hx] at h2
        simp only [List.tail_cons] at h2
        have := List.takeWhile_append_dropWhile (p := fun c => decide (c ≠ '}')) (l := t)
        rw [h1, hx, hhead, h2] at this
        exact this.symm
      · simp at h
    · simp at h
  · rintro ⟨hb, hn, rfl⟩
    unfold matchTag
    rw [if_pos (List.prefix_append _ _)]
    simp only [List.drop_left]
    obtain ⟨h1, h2⟩ := takeWhile_body (rest := rest) hn
    rw [h1, h2]
    simp [hb]

theorem matchTag_none {tag s : List Char} (h : matchTag tag s = none) :
    ¬ ∃ body rest, body ≠ [] ∧ '}' ∉ body ∧ s = tag ++ (body ++ '}' :: rest) := by
  rintro ⟨b, r, h'⟩
  rw [matchTag_some.2 h'] at h
  simp at h

theorem reSubAux_unwraps (tag : List Char) : ∀ (n : Nat) (s : List Char), s.length ≤ n →
    Unwraps tag s (reSubAux tag n s)
  | 0, [], _ => .nil
  | 0, _ :: _, h => by simp at h
  | n + 1, [], _ => .nil
  | n + 1, c :: s, h => by
    unfold reSubAux
    cases hm : matchTag tag (c :: s) with
    | none => exact .char c s _ (matchTag_none hm) (reSubAux_unwraps tag n s (by simpa using h))
    | some p =>
      obtain ⟨body, rest⟩ := p
      obtain ⟨h1, h2, h3⟩ := matchTag_some.1 hm
      rw [h3]
      refine .wrapped body rest _ h1 h2 (reSubAux_unwraps tag n rest ?_)
      have := congrArg List.length h3
      simp at this h
      omega

theorem unwraps_unique {tag s t t' : List Char} (h : Unwraps tag s t) (h' : Unwraps tag s t') :
    t = t' := by
  induction h generalizing t' with
  | nil =>
    generalize hs : ([] : List Char) = s at h'
    cases h' with
    | nil => rfl
    | wrapped body rest rest' hb => simp at hs
    | char c s s' => simp at hs
  | wrapped body rest rest' hb hn _ ih =>
    generalize hs : tag ++ (body ++ '}' :: rest) = s at h'
    cases h' with
    | nil => simp at hs
    | wrapped body2 rest2 rest2' hb2 hn2 h2 =>
      have e := List.append_cancel_left hs
      have e1 := (takeWhile_body (rest := rest) hn).1
      have e2 := (takeWhile_body (rest := rest2) hn2).1
      rw [e, e2] at e1
      subst e1
      have e3 := List.append_cancel_left e
      simp only [List.cons.injEq, true_and] at e3
      subst e3
      rw [ih h2]
    | char c s s' hc => exact absurd ⟨body, rest, hb, hn, hs.symm⟩ hc
  | char c s s1 hc _ ih =>
    generalize hs : c :: s = s0 at h'
    cases h' with
    | nil => simp at hs
    | wrapped body rest rest' hb hn => exact absurd ⟨body, rest, hb, hn, hs⟩ hc
    | char c2 s2 s2' _ h2 =>
      simp only [List.cons.injEq] at hs
      obtain ⟨rfl, rfl⟩ := hs
      rw [ih h2]

theorem replaceAux_replaced (pat new : List Char) (hp : pat ≠ []) : ∀ (n : Nat) (s : List Char), s.length ≤ n →
    Replaced pat new s (replaceAux pat new n s)
  | 0, [], _ => .nil
  | 0, _ :: _, h => by simp at h
  | n + 1, [], _ => .nil
  | n + 1, c :: s, h => by
    unfold replaceAux
    split
    · rename_i hpre
      obtain ⟨t, ht⟩ := hpre
      rw [← ht, List.drop_left]
      refine .hit t _ (replaceAux_replaced pat new hp n t ?_)
      have := congrArg List.length ht
      have hl := List.length_pos_of_ne_nil hp
      simp at this h
      omega
    · rename_i hpre
      refine .char c s _ ?_ (replaceAux_replaced pat new hp n s (by simpa using h))
      rintro ⟨t, ht⟩
      exact hpre ⟨t, ht.symm⟩

theorem replaced_unique {pat new s t t' : List Char} (hp : pat ≠ []) (h : Replaced pat new s t)
    (h' : Replaced pat new s t') : t = t' := by
  induction h generalizing t' with
  | nil =>
    generalize hs : ([] : List Char) = s at h'
    cases h' with
    | nil => rfl
    | hit rest rest' _ => simp at hs; exact absurd hs.1 hp
    | char c s s' => simp at hs
  | hit rest rest' _ ih =>
    generalize hs : pat ++ rest = s at h'
    cases h' with
    | nil => simp at hs; exact absurd hs.1 hp
    | hit rest2 rest2' h2 =>
      have e := List.append_cancel_left hs
      subst e
      rw [ih h2]
    | char c s s' hc => exact absurd ⟨rest, hs.symm⟩ hc
  | char c s s1 hc _ ih =>
    generalize hs : c :: s = s0 at h'
    cases h' with
    | nil => simp at hs
    | hit rest rest' h2 => exact absurd ⟨rest, hs⟩ hc
    | char c2 s2 s2' _ h2 =>
      simp only [List.cons.injEq] at hs
      obtain ⟨rfl, rfl⟩ := hs
      rw [ih h2]

theorem partOf_iff {tag key name : String} (h : (tag.toList ++ ['{']) <:+: key.toList)
    (t : String) (ht : t.toList = tag.toList ++ ['{']) :
    PartOf tag key name ↔ name = reSub t key := by
  have hu := reSubAux_unwraps t.toList key.toList.length key.toList (le_refl _)
  unfold PartOf reSub
  rw [← ht]
  rw [← ht] at h
  constructor
  · rintro ⟨_, h2⟩
    have := unwraps_unique h2 hu
    rw [← this]; simp
  · intro hn
    refine ⟨h, ?_⟩
    rw [hn]
    simpa using hu

theorem lepton_iff {new name name' : String} : Lepton new name name' ↔ name' = pyReplace "lnu" new name := by
  have hu := replaceAux_replaced "lnu".toList new.toList (by decide) name.toList.length name.toList (le_refl _)
  unfold Lepton pyReplace
  constructor
  · intro h
    have := replaced_unique (by decide) h hu
    rw [← this]; simp
  · intro h
    rw [h]; simpa using hu

theorem eosPart_ok (d : Dict String ℂ) (part : ℂ → ℝ) (hpart : part 0 = 0) (k : String) (x : ℝ) :
    eosPart d part k = .ok x ↔ Contribution d part k x := by
  unfold eosPart
  cases hk : Dict.find d k with
  | some z =>
    simp only [Except.ok.injEq]
    constructor
    · rintro rfl; exact .own z hk
    · intro h
      cases h with
      | own z' hz => rw [hk] at hz; simp at hz; rw [hz]
      | universal ke km hn => rw [hk] at hn; simp at hn
  | none =>
    have hun : Contribution d part k x ↔
        coeff d (pyReplace "lnu" "enue" k) = coeff d (pyReplace "lnu" "munumu" k) ∧
        part (coeff d (pyReplace "lnu" "enue" k)) = x := by
      constructor
      · intro h
        cases h with
        | own z' hz => rw [hk] at hz; simp at hz
        | universal ke km _ he hm heq =>
          rw [lepton_iff.1 he, lepton_iff.1 hm] at heq
          rw [lepton_iff.1 he]
          exact ⟨heq, rfl⟩
      · rintro ⟨h1, rfl⟩
        exact .universal _ _ hk (lepton_iff.2 rfl) (lepton_iff.2 rfl) h1
    rw [hun]
    dsimp only
    split
    · unfold Dict.getD coeff
      split
      · rename_i h; simp [h]
      · rename_i h; simp only [ne_eq, not_not] at h; simp [h]
    · rename_i h
      simp only [Dict.has, not_or, Bool.not_eq_true, Option.isSome_eq_false_iff, Option.isNone_iff_eq_none] at h
      simp [coeff, h.1, h.2, hpart]

theorem eosPart_error (d : Dict String ℂ) (part : ℂ → ℝ) (k : String) :
    (∃ e, eosPart d part k = .error e) ↔ NonUniversal d k := by
  unfold eosPart NonUniversal
  have hun : (∃ ke km, Lepton "enue" k ke ∧ Lepton "munumu" k km ∧ coeff d ke ≠ coeff d km) ↔
      coeff d (pyReplace "lnu" "enue" k) ≠ coeff d (pyReplace "lnu" "munumu" k) := by
    constructor
    · rintro ⟨ke, km, he, hm, hne⟩
      rwa [lepton_iff.1 he, lepton_iff.1 hm] at hne
    · intro h; exact ⟨_, _, lepton_iff.2 rfl, lepton_iff.2 rfl, h⟩
  rw [hun]
  cases hk : Dict.find d k with
  | some z => simp
  | none =>
    dsimp only
    split
    · unfold Dict.getD coeff
      split
      · rename_i h; simp [h]
      · rename_i h; simp only [ne_eq, not_not] at h; simp [h]
    · rename_i h
      simp only [Dict.has, not_or, Bool.not_eq_true, Option.isSome_eq_false_iff, Option.isNone_iff_eq_none] at h
      simp [coeff, h.1, h.2]

theorem eosPart_error_kind {d : Dict String ℂ} {part : ℂ → ℝ} {k : String} {e : PyErr}
    (h : eosPart d part k = .error e) :
    e = .valueError "Found lepton flavour non-universal charged-current coefficients" := by
  unfold eosPart at h
  split at h
  · simp at h
  · dsimp only at h
    split at h
    · split at h
      · simpa using h.symm
      · simp at h
    · simp at h

theorem contains_iff (pat s : String) : contains pat s = true ↔ pat.toList <:+: s.toList := by
  simp [contains]

end Verif
