import Verif.Lemmas.EosLemmas
import Mathlib.Tactic.Linarith
import Mathlib.Data.List.Induction

/-!
C20, C21, C57: conversion to EOS parameters.
-/

set_option autoImplicit false

namespace Verif
open Spec

theorem getEosNp_ok (d : Dict String ℂ) (k : String) (x : ℝ) : getEosNp d k = .ok x ↔ NP d k x := by
  unfold getEosNp
  cases hk : Dict.find d k with
  | some z =>
    simp only [Except.ok.injEq]
    constructor
    · rintro rfl; exact .direct z hk
    · intro h
      cases h with
      | direct z' hz => rw [hk] at hz; simp at hz; rw [hz]
      | re _ _ hn => rw [hk] at hn; simp at hn
      | im _ _ hn => rw [hk] at hn; simp at hn
      | none hn => rw [hk] at hn; simp at hn
  | none =>
    dsimp only
    by_cases hre : contains "Re{" k = true
    · rw [if_pos hre]
      have hre' := (contains_iff _ _).1 hre
      rw [eosPart_ok d _ rfl]
      constructor
      · intro h; exact .re _ _ hk ((partOf_iff (tag := "Re") hre' "Re{" rfl).2 rfl) h
      · intro h
        cases h with
        | direct z' hz => rw [hk] at hz; simp at hz
        | re n _ _ hp hc => rwa [← (partOf_iff (tag := "Re") hre' "Re{" rfl).1 hp]
        | im _ _ _ hno => exact absurd hre' hno
        | none _ hno => exact absurd hre' hno
    · rw [if_neg hre]
      have hre' : NoPart "Re" k := fun h => hre ((contains_iff _ _).2 h)
      by_cases him : contains "Im{" k = true
      · rw [if_pos him]
        have him' := (contains_iff _ _).1 him
        rw [eosPart_ok d _ rfl]
        constructor
        · intro h; exact .im _ _ hk hre' ((partOf_iff (tag := "Im") him' "Im{" rfl).2 rfl) h
        · intro h
          cases h with
          | direct z' hz => rw [hk] at hz; simp at hz
          | re n _ _ hp hc => exact absurd hp.1 hre'
          | im n _ _ _ hp hc => rwa [← (partOf_iff (tag := "Im") him' "Im{" rfl).1 hp]
          | none _ _ hno => exact absurd him' hno
      · rw [if_neg him]
        have him' : NoPart "Im" k := fun h => him ((contains_iff _ _).2 h)
        simp only [Except.ok.injEq]
        constructor
        · rintro rfl; exact .none hk hre' him'
        · intro h
          cases h with
          | direct z' hz => rw [hk] at hz; simp at hz
          | re n _ _ hp hc => exact absurd hp.1 hre'
          | im n _ _ _ hp hc => exact absurd hp.1 him'
          | none _ _ hno => rfl

theorem eosEntry_ok (d : Dict String ℂ) (k : String) (v : JVal) (e : Dict String ℝ) :
    eosEntry d k v = .ok e ↔ ∃ c x, Central v c ∧ NP d k x ∧
      e = [("central", c + x), ("min", c + x), ("max", c + x)] := by
  have hc : ∀ c, Central v c ↔ ∃ j, centralOf v = .ok j ∧ pyAdd j 0 = .ok c := by
    intro c
    unfold Central centralOf
    cases v with
    | obj m =>
      simp only [Dict.get, JVal.obj.injEq, exists_eq_left']
      cases Dict.find m "central" with
      | none => simp
      | some j => cases j <;> simp [pyAdd, eq_comm]
    | _ => simp
  have hadd : ∀ j c x, pyAdd j 0 = .ok c → pyAdd j x = .ok (c + x) := by
    intro j c x h
    cases j <;> simp_all [pyAdd]
  have hadd' : ∀ j x y, pyAdd j x = .ok y → ∃ c, pyAdd j 0 = .ok c ∧ y = c + x := by
    intro j x y h
    cases j <;> simp_all [pyAdd]
  unfold eosEntry
  constructor
  · intro h
    cases h1 : centralOf v with
    | error _ => rw [h1] at h; simp [bind, Except.bind] at h
    | ok j =>
      cases h2 : getEosNp d k with
      | error _ => rw [h1, h2] at h; simp [bind, Except.bind] at h
      | ok x =>
        cases h3 : pyAdd j x with
        | error _ => rw [h1, h2] at h; simp [bind, Except.bind, h3] at h
        | ok y =>
          rw [h1, h2] at h
          simp only [bind, Except.bind, h3, pure, Except.pure, Except.ok.injEq] at h
          obtain ⟨c, h4, rfl⟩ := hadd' _ _ _ h3
          exact ⟨c, x, (hc c).2 ⟨j, h1, h4⟩, (getEosNp_ok _ _ _).1 h2, h.symm⟩
  · rintro ⟨c, x, h1, h2, rfl⟩
    obtain ⟨j, h3, h4⟩ := (hc c).1 h1
    rw [h3, (getEosNp_ok _ _ _).2 h2]
    simp [bind, Except.bind, hadd _ _ x h4, pure, Except.pure]

/-- **C20.** The conversion succeeds with result `out` exactly if `out` lists the entries of the SM table
in the same order, and for each of them central, min and max all are the SM central value `c` plus the
new-physics contribution `x` of that parameter. -/
theorem C20_sm_plus_np (d : Dict String ℂ) (sm : Dict String JVal) (out : Dict String (Dict String ℝ)) :
    wcxf2eos d sm = .ok out ↔
      List.Forall₂ (fun (p : String × JVal) (q : String × Dict String ℝ) => q.1 = p.1 ∧
        ∃ c x, Central p.2 c ∧ NP d p.1 x ∧ q.2 = [("central", c + x), ("min", c + x), ("max", c + x)])
        sm out := by
  unfold wcxf2eos
  induction sm generalizing out with
  | nil =>
    simp only [List.mapM_nil, pure, Except.pure, Except.ok.injEq, List.forall₂_nil_left_iff]
    exact eq_comm
  | cons p sm ih =>
    rw [List.forall₂_cons_left_iff]
    simp only [List.mapM_cons, bind, Except.bind]
    constructor
    · intro h
      cases h1 : eosEntry d p.1 p.2 with
      | error _ => simp [h1] at h
      | ok e =>
        simp only [h1, pure, Except.pure] at h
        split at h
        · simp at h
        · rename_i out' ho
          simp only [Except.ok.injEq] at h
          refine ⟨(p.1, e), out', ⟨rfl, (eosEntry_ok _ _ _ _).1 h1⟩, (ih _).1 ?_, h.symm⟩
          rw [← ho]; rfl
    · rintro ⟨q, out', ⟨h1, h2⟩, h3, rfl⟩
      rw [(eosEntry_ok _ _ _ _).2 h2]
      have := (ih _).2 h3
      simp only [bind, Except.bind, pure, Except.pure] at this ⊢
      rw [this]
      simp [← h1]

/-- The keys of the result are the keys of the SM table. -/
theorem C20_keys (d : Dict String ℂ) (sm : Dict String JVal) (out : Dict String (Dict String ℝ))
    (h : wcxf2eos d sm = .ok out) : Dict.keys out = Dict.keys sm := by
  have := (C20_sm_plus_np d sm out).1 h
  clear h
  induction this with
  | nil => rfl
  | cons h _ ih => simp [ih, h.1]

/-- Names with one group: `pre TAG{body} post` is the `TAG` part of the coefficient `pre body post`. -/
theorem C20_single_group (tag pre body post : String) (hb : body ≠ "") (hb' : '}' ∉ body.toList)
    (ht : '{' ∉ tag.toList) (hp : '{' ∉ pre.toList) (hq : '{' ∉ post.toList) :
    PartOf tag (pre ++ tag ++ "{" ++ body ++ "}" ++ post) (pre ++ body ++ post) := by
  have noTag : ∀ s : List Char, '{' ∉ s → Unwraps (tag.toList ++ ['{']) s s := by
    intro s
    induction s with
    | nil => intro _; exact .nil
    | cons c s ih =>
      intro h
      refine .char c s s ?_ (ih fun h' => h (by simp [h']))
      rintro ⟨b, r, _, _, e⟩
      apply h
      rw [e]; simp
  have hgroup : Unwraps (tag.toList ++ ['{'])
      ((tag.toList ++ ['{']) ++ (body.toList ++ '}' :: post.toList)) (body.toList ++ post.toList) :=
    .wrapped _ _ _ (by simpa using hb) hb' (noTag _ hq)
  -- characters before the group are copied: a group starting among them would contain `{` too early
  have key : ∀ s : List Char, '{' ∉ s →
      Unwraps (tag.toList ++ ['{']) (s ++ ((tag.toList ++ ['{']) ++ (body.toList ++ '}' :: post.toList)))
        (s ++ (body.toList ++ post.toList)) := by
    intro s
    induction s with
    | nil => intro _; simpa using hgroup
    | cons c s ih =>
      intro h
      refine .char c _ _ ?_ (ih (fun h' => h (by simp [h'])))
      rintro ⟨b, r, hb1, hb2, e⟩
      have e' : (c :: s ++ tag.toList) ++ '{' :: (body.toList ++ '}' :: post.toList) =
          tag.toList ++ '{' :: (b ++ '}' :: r) := by simpa using e
      have hl : '{' ∉ c :: s ++ tag.toList := by
        intro hm
        rcases List.mem_append.1 hm with hm | hm
        · exact h hm
        · exact ht hm
      have t1 : ((c :: s ++ tag.toList) ++ '{' :: (body.toList ++ '}' :: post.toList)).takeWhile (· ≠ '{') =
          c :: s ++ tag.toList := by
        rw [List.takeWhile_append_of_pos]
        · simp
        · intro a ha
          simp only [ne_eq, decide_not, Bool.not_eq_eq_eq_not, Bool.not_true, decide_eq_false_iff_not]
          rintro rfl; exact hl ha
      have t2 : (tag.toList ++ '{' :: (b ++ '}' :: r)).takeWhile (· ≠ '{') = tag.toList := by
        rw [List.takeWhile_append_of_pos]
        · simp
        · intro a ha
          simp only [ne_eq, decide_not, Bool.not_eq_eq_eq_not, Bool.not_true, decide_eq_false_iff_not]
          rintro rfl; exact ht ha
      rw [e', t2] at t1
      have := congrArg List.length t1
      simp at this
      omega
  refine ⟨⟨pre.toList, body.toList ++ '}' :: post.toList, by simp⟩, ?_⟩
  have := key pre.toList hp
  simpa using this

/-- A parameter file as shipped with EOS, with coefficients of both kinds: the hypotheses of the
theorems above are met, and the values are those of the manual calculation. -/
example : wcxf2eos [("b->s::c9", ⟨2, 3⟩), ("b->uenue::cVL", ⟨5, 7⟩), ("b->umunumu::cVL", ⟨5, 7⟩)]
    [("b->s::Re{c9}", .obj [("central", .num 4), ("min", .num 0)]),
     ("b->s::Im{c9}", .obj [("central", .num 1)]),
     ("b->ulnu::Im{cVL}", .obj [("central", .num 10)]),
     ("b->s::c1", .obj [("central", .num 11)])] =
    .ok [("b->s::Re{c9}", [("central", 6), ("min", 6), ("max", 6)]),
      ("b->s::Im{c9}", [("central", 4), ("min", 4), ("max", 4)]),
      ("b->ulnu::Im{cVL}", [("central", 17), ("min", 17), ("max", 17)]),
      ("b->s::c1", [("central", 11), ("min", 11), ("max", 11)])] := by
  have p1 : PartOf "Re" "b->s::Re{c9}" "b->s::c9" :=
    C20_single_group "Re" "b->s::" "c9" "" (by decide) (by decide +kernel) (by decide +kernel) (by decide +kernel)
    (by decide +kernel)
  have p2 : PartOf "Im" "b->s::Im{c9}" "b->s::c9" :=
    C20_single_group "Im" "b->s::" "c9" "" (by decide) (by decide +kernel) (by decide +kernel) (by decide +kernel)
    (by decide +kernel)
  have p3 : PartOf "Im" "b->ulnu::Im{cVL}" "b->ulnu::cVL" :=
    C20_single_group "Im" "b->ulnu::" "cVL" "" (by decide) (by decide +kernel) (by decide +kernel) (by decide +kernel)
    (by decide +kernel)
  rw [C20_sm_plus_np]
  refine .cons ⟨rfl, 4, 2, ⟨_, rfl, .inl rfl⟩, .re _ _ rfl p1 (.own ⟨2, 3⟩ rfl), by norm_num⟩ ?_
  refine .cons ⟨rfl, 1, 3, ⟨_, rfl, .inl rfl⟩, .im _ _ rfl (by unfold NoPart; decide +kernel) p2 (.own ⟨2, 3⟩ rfl),
    by norm_num⟩ ?_
  refine .cons ⟨rfl, 10, 7, ⟨_, rfl, .inl rfl⟩, .im _ _ rfl (by unfold NoPart; decide +kernel) p3
    (.universal "b->uenue::cVL" "b->umunumu::cVL" rfl ?_ ?_ rfl), by norm_num⟩ ?_
  · rw [lepton_iff]; decide +kernel
  · rw [lepton_iff]; decide +kernel
  refine .cons ⟨rfl, 11, 0, ⟨_, rfl, .inl rfl⟩, .none rfl (by unfold NoPart; decide +kernel) (by unfold NoPart; decide +kernel),
    by norm_num⟩ .nil

/-- **C21.** For an EOS parameter that is the real or imaginary part of the coefficient `name` (and not
itself a coefficient): the conversion of that parameter raises exactly if the coefficient `name` is absent
and its electron and muon versions differ (absent = 0); the exception is `ValueError`; and if the
coefficient is absent and they agree, their common value is used. -/
theorem C21_non_universal (d : Dict String ℂ) (key name ke km : String) (tag : String) (part : ℂ → ℝ)
    (htag : (tag = "Re" ∧ part = Complex.re) ∨ (tag = "Im" ∧ part = Complex.im ∧ NoPart "Re" key))
    (hk : Dict.find d key = none) (hp : PartOf tag key name)
    (he : Lepton "enue" name ke) (hm : Lepton "munumu" name km) (hn : Dict.find d name = none) :
    ((∃ e, getEosNp d key = .error e) ↔ coeff d ke ≠ coeff d km) ∧
    (∀ e, getEosNp d key = .error e → ∃ why, e = .valueError why) ∧
    (coeff d ke = coeff d km → getEosNp d key = .ok (part (coeff d ke))) := by
  have hcase : getEosNp d key = eosPart d part name := by
    unfold getEosNp
    rw [hk]
    dsimp only
    rcases htag with ⟨rfl, rfl⟩ | ⟨rfl, rfl, hno⟩
    · rw [if_pos ((contains_iff "Re{" key).2 hp.1), ← (partOf_iff hp.1 "Re{" rfl).1 hp]
    · rw [if_neg (fun h => hno ((contains_iff "Re{" key).1 h)), if_pos ((contains_iff "Im{" key).2 hp.1),
        ← (partOf_iff hp.1 "Im{" rfl).1 hp]
  have hzero : part 0 = 0 := by
    rcases htag with ⟨rfl, rfl⟩ | ⟨rfl, rfl, hno⟩ <;> rfl
  rw [hcase]
  refine ⟨?_, ?_, ?_⟩
  · rw [eosPart_error]
    constructor
    · rintro ⟨_, ke', km', he', hm', hne⟩
      rwa [lepton_iff.1 he, lepton_iff.1 hm, ← lepton_iff.1 he', ← lepton_iff.1 hm']
    · intro h; exact ⟨hn, ke, km, he, hm, h⟩
  · intro e h; exact ⟨_, eosPart_error_kind h⟩
  · intro h
    rw [eosPart_ok d part hzero]
    exact .universal ke km hn he hm h

/-- The conversion of the whole table fails because of non-universality exactly if some parameter does:
with readable central values everywhere, it raises if and only if some parameter of the table has no
new-physics contribution according to the specification. -/
theorem C21_table (d : Dict String ℂ) (sm : Dict String JVal) (hc : ∀ k v, (k, v) ∈ sm → ∃ c, Central v c) :
    (∃ e, wcxf2eos d sm = .error e) ↔ ∃ k v, (k, v) ∈ sm ∧ ¬ ∃ x, NP d k x := by
  constructor
  · rintro ⟨e, he⟩
    by_contra hno
    push Not at hno
    have : ∃ out, wcxf2eos d sm = .ok out := by
      have : ∃ out, List.Forall₂ (fun (p : String × JVal) (q : String × Dict String ℝ) => q.1 = p.1 ∧
        ∃ c x, Central p.2 c ∧ NP d p.1 x ∧ q.2 = [("central", c + x), ("min", c + x), ("max", c + x)])
        sm out := by
        clear he
        induction sm with
        | nil => exact ⟨[], .nil⟩
        | cons p sm ih =>
          obtain ⟨out, ho⟩ := ih (fun k v h => hc k v (by simp [h])) (fun k v h => hno k v (by simp [h]))
          obtain ⟨c, h1⟩ := hc p.1 p.2 (by simp)
          obtain ⟨x, h2⟩ := hno p.1 p.2 (by simp)
          exact ⟨(p.1, _) :: out, .cons ⟨rfl, c, x, h1, h2, rfl⟩ ho⟩
      obtain ⟨out, ho⟩ := this
      exact ⟨out, (C20_sm_plus_np d sm out).2 ho⟩
    obtain ⟨out, ho⟩ := this
    rw [he] at ho; simp at ho
  · rintro ⟨k, v, hm, hno⟩
    cases h : wcxf2eos d sm with
    | error e => exact ⟨e, rfl⟩
    | ok out =>
      exfalso
      have := (C20_sm_plus_np d sm out).1 h
      clear h hc
      induction this with
      | nil => simp at hm
      | cons hpq _ ih =>
        rcases List.mem_cons.1 hm with rfl | hm
        · obtain ⟨_, c, x, _, hx, _⟩ := hpq
          exact hno ⟨x, hx⟩
        · exact ih hm

/-- Electron coefficient without muon coefficient: refused. -/
example : (∃ e, getEosNp [("b->uenue::cVL", ⟨5, 7⟩)] "b->ulnu::Im{cVL}" = .error e) :=
  (C21_non_universal _ _ "b->ulnu::cVL" "b->uenue::cVL" "b->umunumu::cVL" "Im" Complex.im
    (.inr ⟨rfl, rfl, by unfold NoPart; decide +kernel⟩) rfl
    (C20_single_group "Im" "b->ulnu::" "cVL" "" (by decide) (by decide +kernel) (by decide +kernel) (by decide +kernel)
    (by decide +kernel))
    (by rw [lepton_iff]; decide +kernel) (by rw [lepton_iff]; decide +kernel) rfl).1.2 (by
      simp [coeff, Dict.find, Complex.ext_iff])

/-! ### The SM table -/

theorem truthy_iff (r : JVal) : truthy r = true ↔ Truthy r := by
  unfold truthy Truthy
  cases r with
  | list l => cases l <;> simp
  | obj d => cases d <;> simp
  | _ => simp

theorem eosRelevant_ok {f : JVal} {o : Option (Dict String JVal)} (h : eosRelevant f = .ok o) :
    ∃ d, f = .obj d ∧ ((∃ e, o = some e ∧ Relevant d ∧ e = Dict.del d "@metadata@") ∨ (o = none ∧ ¬ Relevant d)) := by
  unfold eosRelevant at h
  cases f with
  | obj d =>
    refine ⟨d, rfl, ?_⟩
    dsimp only at h
    unfold Relevant
    cases hm : Dict.find d "@metadata@" with
    | none => simp [hm] at h; subst h; simp
    | some j =>
      rw [hm] at h
      cases j with
      | obj m =>
        dsimp only at h
        cases hr : Dict.find m "wcxf-relevant" with
        | none => simp [hr] at h; subst h; simp [hr]
        | some r =>
          rw [hr] at h
          dsimp only at h
          split at h
          · rename_i ht
            simp at h; subst h
            left
            exact ⟨_, rfl, ⟨m, r, rfl, hr, (truthy_iff r).1 ht⟩, rfl⟩
          · rename_i ht
            simp at h; subst h
            right
            refine ⟨rfl, ?_⟩
            rintro ⟨m', r', h1, h2, h3⟩
            simp only [Option.some.injEq, JVal.obj.injEq] at h1
            subst h1
            rw [hr] at h2
            simp only [Option.some.injEq] at h2
            subst h2
            exact ht ((truthy_iff _).2 h3)
      | str s => dsimp only at h; split at h <;> simp at h; subst h; simp
      | list l => dsimp only at h; split at h <;> simp at h; subst h; simp
      | _ => simp at h
  | _ => simp at h

theorem getSmWcs_snoc (fs : List JVal) (f : JVal) (t : Dict String JVal) (h : getSmWcs (fs ++ [f]) = .ok t) :
    ∃ t0, getSmWcs fs = .ok t0 ∧ ∃ o, eosRelevant f = .ok o ∧ t = match o with
      | none => t0
      | some d => Dict.upd t0 d := by
  unfold getSmWcs at *
  rw [List.foldlM_append] at h
  simp only [bind, Except.bind] at h
  split at h
  · simp at h
  · rename_i t0 ht0
    refine ⟨t0, by simpa [bind, Except.bind] using ht0, ?_⟩
    simp only [List.foldlM_cons, List.foldlM_nil, bind, Except.bind] at h
    cases hr : eosRelevant f with
    | error e => simp [hr] at h
    | ok o =>
      refine ⟨o, rfl, ?_⟩
      rw [hr] at h
      cases o <;> simpa [pure, Except.pure] using h.symm

/-- **C57.** What the SM table contains. `k` has the value `v` in the table if and only if `v` is its value
in the last file (in listing order) that is marked as relevant and defines `k`; the metadata entry itself
is never in the table. -/
theorem C57_sm_table (files : List JVal) (hwf : ∀ d, JVal.obj d ∈ files → Dict.WF d)
    (t : Dict String JVal) (h : getSmWcs files = .ok t) (k : String) (v : JVal) :
    Dict.find t k = some v ↔ k ≠ "@metadata@" ∧ ∃ pre d post, files = pre ++ JVal.obj d :: post ∧ Relevant d ∧
      Dict.find d k = some v ∧ ∀ d', JVal.obj d' ∈ post → Relevant d' → Dict.find d' k = none := by
  induction files using List.reverseRecOn generalizing t v with
  | nil =>
    simp only [getSmWcs, List.foldlM_nil, pure, Except.pure, Except.ok.injEq] at h
    subst h
    simp
  | append_singleton fs f ih =>
    obtain ⟨t0, h0, o, ho, ht⟩ := getSmWcs_snoc fs f t h
    have ih := ih (fun d hd => hwf d (by simp [hd])) t0 h0
    obtain ⟨d, rfl, hd⟩ := eosRelevant_ok ho
    have hsplit : (∃ pre d1 post, fs ++ [JVal.obj d] = pre ++ JVal.obj d1 :: post ∧ Relevant d1 ∧
        Dict.find d1 k = some v ∧ ∀ d', JVal.obj d' ∈ post → Relevant d' → Dict.find d' k = none) ↔
        (Relevant d ∧ Dict.find d k = some v) ∨ ((Relevant d → Dict.find d k = none) ∧
        ∃ pre d1 post, fs = pre ++ JVal.obj d1 :: post ∧ Relevant d1 ∧
        Dict.find d1 k = some v ∧ ∀ d', JVal.obj d' ∈ post → Relevant d' → Dict.find d' k = none) := by
      constructor
      · rintro ⟨pre, d1, post, e, h1, h2, h3⟩
        rcases List.eq_nil_or_concat post with rfl | ⟨post', x, rfl⟩
        · obtain ⟨_, e2⟩ := List.append_inj' e rfl
          simp only [List.cons.injEq, JVal.obj.injEq, and_true] at e2
          subst e2
          exact .inl ⟨h1, h2⟩
        · rw [List.concat_eq_append, ← List.cons_append, ← List.append_assoc] at e
          obtain ⟨e1, e2⟩ := List.append_inj' e rfl
          simp only [List.cons.injEq, and_true] at e2
          subst e2
          exact .inr ⟨h3 d (by simp), pre, d1, post', e1, h1, h2, fun d' hd' => h3 d' (by simp [hd'])⟩
      · rintro (⟨h1, h2⟩ | ⟨h0, pre, d1, post, rfl, h1, h2, h3⟩)
        · exact ⟨fs, d, [], rfl, h1, h2, by simp⟩
        · refine ⟨pre, d1, post ++ [.obj d], by simp, h1, h2, ?_⟩
          intro d' hd'
          rcases List.mem_append.1 hd' with hd' | hd'
          · exact h3 d' hd'
          · simp only [List.mem_singleton, JVal.obj.injEq] at hd'
            subst hd'; exact h0
    rw [hsplit]
    rcases hd with ⟨e, rfl, hrel, rfl⟩ | ⟨rfl, hrel⟩
    · dsimp only at ht
      subst ht
      have hwfd := hwf d (by simp)
      rw [Dict.find_upd (Dict.WF_del hwfd _), Dict.find_del hwfd]
      by_cases hk : "@metadata@" = k
      · subst hk
        simp only [if_true, Option.none_or, ih, ne_eq, not_true, false_and]
      · rw [if_neg hk]
        have hk' : k ≠ "@metadata@" := fun h => hk h.symm
        have ih' := ih v
        simp only [hk', ne_eq, not_false_iff, true_and] at ih'
        cases hf : Dict.find d k with
        | none => simp [ih', hrel, hk']
        | some w => simp [hrel, hk']
    · dsimp only at ht
      subst ht
      rw [ih]
      simp [hrel]

/-- Reading the directory succeeds if every file is a mapping with regular metadata. -/
theorem C57_readable (files : List JVal) (h : ∀ f ∈ files, ∃ d, f = .obj d ∧ MetaOk d) :
    ∃ t, getSmWcs files = .ok t := by
  induction files using List.reverseRecOn with
  | nil => exact ⟨[], rfl⟩
  | append_singleton fs f ih =>
    obtain ⟨t0, h0⟩ := ih (fun f hf => h f (by simp [hf]))
    obtain ⟨d, rfl, hm⟩ := h f (by simp)
    have : ∃ o, eosRelevant (.obj d) = .ok o := by
      unfold eosRelevant
      rcases hm with hm | ⟨m, hm⟩
      · simp [hm]
      · simp only [hm]
        cases Dict.find m "wcxf-relevant" with
        | none => simp
        | some r => dsimp only; split <;> simp
    obtain ⟨o, ho⟩ := this
    unfold getSmWcs at *
    rw [List.foldlM_append, h0]
    simp only [bind, Except.bind, List.foldlM_cons, List.foldlM_nil, ho]
    cases o <;> simp [pure, Except.pure]

/-- **C57, order.** If no parameter is defined by two relevant files, the table does not depend on the order
in which the directory is listed. -/
theorem C57_order (files files' : List JVal) (hp : files.Perm files') (hnd : files.Nodup)
    (hwf : ∀ d, JVal.obj d ∈ files → Dict.WF d)
    (hdis : ∀ d d', JVal.obj d ∈ files → JVal.obj d' ∈ files → d ≠ d' → Relevant d → Relevant d' →
      ∀ k, k ≠ "@metadata@" → Dict.find d k ≠ none → Dict.find d' k = none)
    (t t' : Dict String JVal) (h : getSmWcs files = .ok t) (h' : getSmWcs files' = .ok t') (k : String) :
    Dict.find t k = Dict.find t' k := by
  have key : ∀ (fs : List JVal) (hp : files.Perm fs) (t : Dict String JVal) (h : getSmWcs fs = .ok t) (v : JVal),
      Dict.find t k = some v ↔ k ≠ "@metadata@" ∧ ∃ d, JVal.obj d ∈ files ∧ Relevant d ∧ Dict.find d k = some v := by
    intro fs hp t h v
    rw [C57_sm_table fs (fun d hd => hwf d (hp.mem_iff.2 hd)) t h]
    constructor
    · rintro ⟨hk, pre, d, post, rfl, h1, h2, _⟩
      exact ⟨hk, d, hp.mem_iff.2 (by simp), h1, h2⟩
    · rintro ⟨hk, d, hd, h1, h2⟩
      obtain ⟨pre, post, rfl⟩ := List.append_of_mem (hp.mem_iff.1 hd)
      refine ⟨hk, pre, d, post, rfl, h1, h2, ?_⟩
      intro d' hd' hr'
      refine hdis d d' hd (hp.mem_iff.2 (by simp [hd'])) ?_ h1 hr' k hk (by simp [h2])
      rintro rfl
      have := hp.nodup_iff.1 hnd
      rw [List.nodup_append] at this
      exact (List.nodup_cons.1 this.2.1).1 hd'
  apply Option.ext
  intro v
  rw [key files (.refl _) t h, key files' hp t' h']

/-- Two relevant files and one that is not. -/
example : ∃ t, getSmWcs [.obj [("a", .num 1), ("@metadata@", .obj [("wcxf-relevant", .bool true)])],
      .obj [("b", .num 2)], .obj [("@metadata@", .obj [("wcxf-relevant", .num 1)]), ("c", .num 3)]] = .ok t ∧
    Dict.keys t = ["a", "c"] := by
  refine ⟨[("a", .num 1), ("c", .num 3)], ?_, rfl⟩
  simp [getSmWcs, eosRelevant, Dict.find, Dict.del, Dict.upd, Dict.put, truthy, bind, Except.bind,
    List.foldlM_cons, List.foldlM_nil, pure, Except.pure]

end Verif
