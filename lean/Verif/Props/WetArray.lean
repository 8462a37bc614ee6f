import Verif.Lemmas.WetArrayLemmas

/-!
C39: expansion of a JMS coefficient set to full tensors.

The claim as a whole is false: entries that are their own conjugate are not forced to be real. Everything
else holds, and with real values for those entries the relations hold, too.
-/

set_option autoImplicit false

namespace Verif

open Spec

/-- For every operator of the listing, exactly one entry of every orbit is listed. -/
def OnePerOrbit (L : List String) : Prop :=
  ∀ k i, Plain k → i ≠ [] → (∃ j, j.length = i.length ∧ label k j ∈ L) → ∃ j, (∃ c, Tied k c i j) ∧ label k j ∈ L ∧
    ∀ j', (∃ c, Tied k c i j') → label k j' ∈ L → j' = j

/-- The tensors satisfy the relations. -/
def Related (Ca : Dict String NArr) : Prop :=
  ∀ k c i j, Tied k c i j → ∀ v w, readArr Ca (k, i) = .ok v → readArr Ca (k, j) = .ok w → w = conjIf c v

/-- C39: listed coefficients keep their value and absent ones count as zero; every entry with a listed member of
its orbit is determined; the relations hold if one member per orbit is listed and entries that are their own conjugate
are real. Missing from the full claim: reality of those entries is not enforced. -/
theorem C39_partial {rank : String → ℕ} {L : List String} (hL : IsListing rank L) (C : Dict String ℂ) :
    ∃ Ca, jmsToArray L C = .ok Ca ∧
      (∀ k i, Plain k → i ≠ [] → label k i ∈ L → readArr Ca (k, i) = .ok (Dict.getD C (label k i) 0)) ∧
      (∀ k c i j, Plain k → i ≠ [] → Tied k c i j → label k j ∈ L → ∃ v, readArr Ca (k, i) = .ok v) ∧
      (∀ k i, Plain k → i ≠ [] → i.length = rank k → (∃ j, label k j ∈ L) → (∀ c j, Tied k c i j → label k j ∉ L) →
        readArr Ca (k, i) = .error .nan) ∧
      (OnePerOrbit L → (∀ k i, Tied k true i i → label k i ∈ L → (Dict.getD C (label k i) 0).im = 0) →
        ∀ k c i j, Plain k → i ≠ [] → i.length = rank k → (∃ l, label k l ∈ L) → Tied k c i j →
          ∃ v, readArr Ca (k, i) = .ok v ∧ readArr Ca (k, j) = .ok (conjIf c v)) := by
  obtain ⟨Ca, h1, h2⟩ := jmsToArray_ok hL C
  have listed : ∀ k j, label k j ∈ L → listedOpt L C k j = some (Dict.getD C (label k j) 0) := by
    intro k j h; unfold listedOpt; rw [if_pos h]
  have four : ∀ (k : String) (i : List (Fin 3)), Plain k → i.length = rank k → (∃ j, label k j ∈ L) → k ∈ jmsHermitian ∨ k ∈ jmsExchange → i.length = 4 := by
    rintro k i hk hi ⟨j, hj⟩ hs
    rw [hi]; exact hL.four k j hk hj hs
  refine ⟨Ca, h1, ?_, ?_, ?_, ?_⟩
  · intro k i hk hi hm
    rw [h2 k i hk hi (isListing_length hL hk hm) ⟨i, hm⟩, fillOpt_here (listed k i hm)]
  · intro k c i j hk hi ht hm
    obtain ⟨w, hw⟩ := fillOpt_isSome ht (listed k j hm)
    exact ⟨w, by rw [h2 k i hk hi (ht.length.trans (isListing_length hL hk hm)) ⟨j, hm⟩, hw]⟩
  · intro k i hk hi hr hl hn
    rw [h2 k i hk hi hr hl]
    cases hf : fillOpt k (listedOpt L C k) i with
    | none => rfl
    | some w =>
      obtain ⟨c, j, x, ht, hx, -⟩ := fillOpt_some (four k i hk hr hl) hf
      unfold listedOpt at hx
      rw [if_neg (hn c j ht)] at hx; cases hx
  · intro ho hre k c i j hk hi hr hl ht
    obtain ⟨l, hl'⟩ := hl
    have hll := isListing_length hL hk hl'
    obtain ⟨m, ⟨c1, hm⟩, hmL, huniq⟩ := ho k i hk hi ⟨l, hll.trans hr.symm, hl'⟩
    -- any entry of the orbit gets the value of the listed one
    have key : ∀ i' c', i' ≠ [] → i'.length = rank k → Tied k c' i' m → (∃ c0, Tied k c0 i i') →
        readArr Ca (k, i') = .ok (conjIf c' (Dict.getD C (label k m) 0)) := by
      rintro i' c' hne hlen ht' ⟨c0, ht0⟩
      obtain ⟨w, hw⟩ := fillOpt_isSome ht' (listed k m hmL)
      obtain ⟨c2, j2, x2, ht2, hx2, hw2⟩ := fillOpt_some (four k i' hk hlen ⟨m, hmL⟩) hw
      have hj2 : label k j2 ∈ L := by
        by_contra hn
        unfold listedOpt at hx2
        rw [if_neg hn] at hx2; cases hx2
      have e := huniq j2 ⟨_, ht0.trans ht2⟩ hj2
      subst e
      rw [listed k j2 hmL] at hx2
      injection hx2 with hx2
      rw [h2 k i' hk hne hlen ⟨j2, hmL⟩, hw, hw2, ← hx2]
      by_cases hc : c2 = c'
      · rw [hc]
      · have hself : Tied k true j2 j2 := by
          have := ht2.symm.trans ht'
          have e : (c2 ^^ c') = true := by revert hc; cases c2 <;> cases c' <;> decide
          rwa [e] at this
        have hr := Complex.conj_eq_iff_im.2 (hre k j2 hself hmL)
        have : ∀ c, conjIf c (Dict.getD C (label k j2) 0) = Dict.getD C (label k j2) 0 := by
          intro c; cases c
          · rfl
          · exact hr
        simp only [this]
    have hj : j ≠ [] := by
      intro e
      rw [e] at ht
      exact hi (List.length_eq_zero_iff.1 ht.length)
    refine ⟨_, key i c1 hi hr hm ⟨_, Tied.refl i⟩, ?_⟩
    rw [key j (c ^^ c1) hj (ht.length.symm.trans hr) (ht.symm.trans hm) ⟨_, ht⟩, conjIf_xor]

/-! ### Counterexample: a complex value for an entry that is its own conjugate -/

/-- A number for an index. -/
def idxCode (i : List (Fin 3)) : ℕ := i.foldl (fun a x => 3 * a + x.val) 0

/-- All indices with four entries. -/
def quads : List (List (Fin 3)) :=
  (List.finRange 3).flatMap fun a => (List.finRange 3).flatMap fun b => (List.finRange 3).flatMap fun c =>
    (List.finRange 3).map fun d => [a, b, c, d]

theorem mem_quads {i : List (Fin 3)} : i ∈ quads ↔ i.length = 4 := by
  constructor
  · intro h
    simp only [quads, List.mem_flatMap, List.mem_map] at h
    obtain ⟨a, -, b, -, c, -, d, -, rfl⟩ := h
    rfl
  · intro h
    match i, h with
    | [a, b, c, d], _ => simp [quads]

/-- One member of every orbit of `VedLL`. -/
def oneVed : List String := (quads.filter fun i => decide (idxCode i ≤ idxCode (permHerm i))).map (label "VedLL")

theorem mem_oneVed {k : String} (hk : Plain k) {i : List (Fin 3)} :
    label k i ∈ oneVed ↔ k = "VedLL" ∧ i.length = 4 ∧ idxCode i ≤ idxCode (permHerm i) := by
  constructor
  · intro h
    obtain ⟨j, hj, e⟩ := List.mem_map.1 h
    obtain ⟨hj, hc⟩ := List.mem_filter.1 hj
    obtain ⟨rfl, rfl⟩ := label_inj (by decide) hk e
    exact ⟨rfl, mem_quads.1 hj, of_decide_eq_true hc⟩
  · rintro ⟨rfl, h4, hc⟩
    exact List.mem_map.2 ⟨i, List.mem_filter.2 ⟨mem_quads.2 h4, decide_eq_true hc⟩, rfl⟩

theorem oneVed_listing : IsListing (fun _ => 4) oneVed where
  name := by
    intro n hn
    obtain ⟨i, hi, rfl⟩ := List.mem_map.1 hn
    exact ⟨"VedLL", i, by decide, mem_quads.1 (List.mem_filter.1 hi).1, rfl⟩
  four := fun _ _ _ _ _ => rfl

theorem herm_code : ∀ a b c d : Fin 3, idxCode [a, b, c, d] = idxCode [b, a, d, c] → [a, b, c, d] = [b, a, d, c] := by
  decide +kernel

theorem oneVed_one : OnePerOrbit oneVed := by
  rintro k i hk hi ⟨j, hj, hm⟩
  obtain ⟨rfl, h4, -⟩ := (mem_oneVed hk).1 hm
  rw [h4] at hj
  have hi4 := hj.symm
  have hx : "VedLL" ∉ jmsExchange := by decide
  have hh : "VedLL" ∈ jmsHermitian := by decide
  have orbit : ∀ {j'}, (∃ c, Tied "VedLL" c i j') → j' = i ∨ j' = permHerm i := by
    rintro j' ⟨c, ht⟩
    rcases ht.elim4 with ⟨h, -⟩ | ⟨-, h, -⟩ | ⟨h, -⟩ | ⟨-, h, -⟩
    · exact Or.inl h
    · exact Or.inr h
    · exact absurd h hx
    · exact absurd h hx
  have anti : ∀ {j'}, j' = i ∨ j' = permHerm i → idxCode j' ≤ idxCode (permHerm j') →
      ∀ {j''}, j'' = i ∨ j'' = permHerm i → idxCode j'' ≤ idxCode (permHerm j'') → j'' = j' := by
    have eqv : idxCode i = idxCode (permHerm i) → i = permHerm i := by
      match i, hi4 with
      | [a, b, c, d], _ => exact herm_code a b c d
    rintro j' (rfl | rfl) h1 j'' (rfl | rfl) h2
    · rfl
    · rw [permHerm_invol] at h2; exact (eqv (le_antisymm h1 h2)).symm
    · rw [permHerm_invol] at h1; exact eqv (le_antisymm h2 h1)
    · rfl
  rcases le_total (idxCode i) (idxCode (permHerm i)) with h | h
  · refine ⟨i, ⟨false, Tied.refl i⟩, (mem_oneVed hk).2 ⟨rfl, hi4, h⟩, fun j' hj' hm' => ?_⟩
    exact anti (Or.inl rfl) h (orbit hj') ((mem_oneVed hk).1 hm').2.2
  · have h' : idxCode (permHerm i) ≤ idxCode (permHerm (permHerm i)) := by rw [permHerm_invol]; exact h
    refine ⟨permHerm i, ⟨true, Tied.permHerm hh hi4⟩, (mem_oneVed hk).2 ⟨rfl, by rw [length_permHerm, hi4], h'⟩,
      fun j' hj' hm' => ?_⟩
    exact anti (Or.inr rfl) h' (orbit hj') ((mem_oneVed hk).1 hm').2.2

/-- The relations need not hold although exactly one member per orbit is listed: `VedLL_1111 = i` stays as it is. -/
theorem C39_refuted : ¬ ∀ (rank : String → ℕ) (L : List String) (C : Dict String ℂ), IsListing rank L → OnePerOrbit L →
    ∃ Ca, jmsToArray L C = .ok Ca ∧ Related Ca := by
  intro h
  obtain ⟨Ca, h1, h2⟩ := h _ oneVed [("VedLL_1111", Complex.I)] oneVed_listing oneVed_one
  obtain ⟨Ca', h1', h3, -⟩ := C39_partial oneVed_listing [("VedLL_1111", Complex.I)]
  rw [h1] at h1'
  injection h1' with h1'
  subst h1'
  have h4 := h3 "VedLL" [0, 0, 0, 0] (by decide) (by simp) ((mem_oneVed (by decide)).2 ⟨rfl, rfl, le_refl _⟩)
  have h5 := h2 "VedLL" true [0, 0, 0, 0] [0, 0, 0, 0] (Tied.herm false _ 0 0 0 0 (by decide) (Tied.refl _)) _ _ h4 h4
  have e : label "VedLL" [0, 0, 0, 0] = "VedLL_1111" := by decide +kernel
  rw [e] at h5
  simp only [Dict.getD, Dict.find, if_true, conjIf, Complex.conj_I, Option.getD_some] at h5
  have := congrArg Complex.im h5
  norm_num at this

/-- The hypotheses of the last part of `C39_partial` can be met with a non-trivial coefficient set: an off-diagonal
complex and a diagonal real entry. -/
example : ∃ Ca, jmsToArray oneVed [("VedLL_1112", 2 + Complex.I), ("VedLL_1111", 3)] = .ok Ca ∧
    readArr Ca ("VedLL", [0, 0, 1, 0]) = .ok (2 - Complex.I) := by
  obtain ⟨Ca, h1, h2, -, -, h3⟩ := C39_partial oneVed_listing [("VedLL_1112", 2 + Complex.I), ("VedLL_1111", 3)]
  refine ⟨Ca, h1, ?_⟩
  have e1 : label "VedLL" [0, 0, 0, 1] = "VedLL_1112" := by decide +kernel
  have hin : label "VedLL" [0, 0, 0, 1] ∈ oneVed := (mem_oneVed (by decide)).2 ⟨rfl, rfl, by decide⟩
  have hre : ∀ k i, Tied k true i i → label k i ∈ oneVed →
      (Dict.getD [("VedLL_1112", 2 + Complex.I), ("VedLL_1111", 3)] (label k i) 0).im = 0 := by
    intro k i ht hm
    have hne : label k i ≠ "VedLL_1112" := by
      intro e
      rw [← e1] at e
      have hk : Plain k := by
        obtain ⟨k', i', hk', hi', e'⟩ := oneVed_listing.name _ hm
        rcases ht.elim4 with ⟨-, h⟩ | ⟨h, -⟩ | ⟨-, -, h⟩ | ⟨h, -⟩
        · cases h
        · exact (by decide +kernel : ∀ k ∈ jmsHermitian, Plain k) k h
        · cases h
        · exact (by decide +kernel : ∀ k ∈ jmsHermitian, Plain k) k h
      obtain ⟨rfl, rfl⟩ := label_inj hk (by decide) e
      rcases ht.elim4 with ⟨-, h⟩ | ⟨-, h, -⟩ | ⟨-, -, h⟩ | ⟨-, h, -⟩
      · cases h
      · exact absurd h (by decide)
      · cases h
      · exact absurd h (by decide)
    simp only [Dict.getD, Dict.find, hne.symm, if_false]
    split_ifs <;> simp
  obtain ⟨v, hv, hw⟩ := h3 oneVed_one hre "VedLL" true [0, 0, 0, 1] [0, 0, 1, 0] (by decide) (by simp) rfl ⟨_, hin⟩
    (Tied.herm false _ 0 0 0 1 (by decide) (Tied.refl _))
  rw [h2 "VedLL" [0, 0, 0, 1] (by decide) (by simp) hin, e1] at hv
  injection hv with hv
  rw [hw, ← hv]
  simp [Dict.getD, Dict.find, conjIf, sub_eq_add_neg]
  exact map_ofNat (starRingEnd ℂ) 2

end Verif
