import Verif.Lemmas.Marks
import Verif.Spec.Inputs

/-! Dependence of the tables of the WET translators on the parameters. -/

set_option autoImplicit false

namespace Verif

open Spec

variable {S : Type} {P P' : PEnv}

/-- Two tables with the same keys, whose values agree for the keys in `ok`. -/
def Agr (ok : String → Prop) (B B' : Block S) : Prop :=
  List.Forall₂ (fun e e' => e.1 = e'.1 ∧ (ok e.1 → ∀ v, e.2.val v = e'.2.val v)) B B'

namespace Agr

variable {ok okA : String → Prop} {B B' : Block S}

theorem refl (ok : String → Prop) (B : Block S) : Agr ok B B := by
  unfold Agr
  induction B with
  | nil => exact .nil
  | cons e B ih => exact .cons ⟨rfl, fun _ _ => rfl⟩ ih

theorem append {C C' : Block S} (h : Agr ok B B') (h' : Agr ok C C') : Agr ok (B ++ C) (B' ++ C') := by
  unfold Agr at h h' ⊢
  induction h with
  | nil => exact h'
  | cons a _ ih => exact .cons a ih

theorem flatten_map {α : Type} {f f' : α → Block S} (l : List α) (h : ∀ x ∈ l, Agr ok (f x) (f' x)) :
    Agr ok (l.map f).flatten (l.map f').flatten := by
  induction l with
  | nil => exact .nil
  | cons x l ih =>
    simp only [List.map_cons, List.flatten_cons]
    exact (h x List.mem_cons_self).append (ih fun y hy => h y (List.mem_cons_of_mem _ hy))

theorem flatten_flatMap {α : Type} {f f' : α → List (Block S)} (l : List α) (h : ∀ x ∈ l, Agr ok (f x).flatten (f' x).flatten) :
    Agr ok (l.flatMap f).flatten (l.flatMap f').flatten := by
  induction l with
  | nil => exact .nil
  | cons x l ih =>
    simp only [List.flatMap_cons, List.flatten_append]
    exact (h x List.mem_cons_self).append (ih fun y hy => h y (List.mem_cons_of_mem _ hy))

theorem flatten_append {l l' m m' : List (Block S)} (h : Agr ok l.flatten l'.flatten) (h' : Agr ok m.flatten m'.flatten) :
    Agr ok (l ++ m).flatten (l' ++ m').flatten := by
  rw [List.flatten_append, List.flatten_append]; exact h.append h'

theorem bkeys_eq (h : Agr ok B B') : bkeys B = bkeys B' := by
  unfold Agr at h
  unfold bkeys
  induction h with
  | nil => rfl
  | cons a _ ih => rw [List.map_cons, List.map_cons, a.1, ih]

theorem getD (h : Agr ok B B') {n : String} (hn : ok n) (v : S → ℂ) :
    Dict.getD (bval v B) n 0 = Dict.getD (bval v B') n 0 := by
  unfold Agr at h
  induction h with
  | nil => rfl
  | @cons a b l l' h hl ih =>
    obtain ⟨k, e⟩ := a
    obtain ⟨k', e'⟩ := b
    obtain ⟨h1, h2⟩ := h
    simp only at h1 h2
    subst h1
    simp only [bval, Dict.getD, List.map_cons, Dict.find] at ih ⊢
    split_ifs with hk
    · subst hk; simp [h2 hn v]
    · exact ih

theorem map {T : Type} {f f' : Ex S → Ex T} (h : Agr ok B B')
    (hf : ∀ e ∈ B, ∀ e', ok e.1 → (∀ v, e.2.val v = e'.val v) → ∀ v, (f e.2).val v = (f' e').val v) :
    Agr ok (B.map fun p => (p.1, f p.2)) (B'.map fun p => (p.1, f' p.2)) := by
  unfold Agr at h ⊢
  induction h with
  | nil => exact .nil
  | @cons a b _ _ h _ ih =>
    exact .cons ⟨h.1, fun hk => hf a List.mem_cons_self b.2 hk (h.2 hk)⟩ (ih fun e he => hf e (List.mem_cons_of_mem _ he))

theorem scaleBy {c c' : ℂ} (h : Agr ok B B') (hc : ∀ n ∈ bkeys B, ok n → c = c') : Agr ok (scaleBy c B) (scaleBy c' B') := by
  refine h.map (f := fun e => c * e) (f' := fun e => c' * e) fun e he e' hk hv v => ?_
  have := hc e.1 (List.mem_map.2 ⟨e, he, rfl⟩) hk
  subst this
  change c * e.2.val v = c * e'.val v
  rw [hv]

theorem divideBy {c c' : ℂ} (h : Agr ok B B') (hc : ∀ n ∈ bkeys B, ok n → c = c') : Agr ok (divideBy c B) (divideBy c' B') := by
  refine h.map (f := fun e => e / c) (f' := fun e => e / c') fun e he e' hk hv v => ?_
  have := hc e.1 (List.mem_map.2 ⟨e, he, rfl⟩) hk
  subst this
  change e.2.val v / c = e'.val v / c
  rw [hv]

theorem val_congr {v w : S → ℂ} (e : Ex S) (h : ∀ m ∈ e.marks, v m.2 = w m.2) : e.val v = e.val w := by
  have := Ex.val_marks (v := w) (v' := v) e 1 fun m hm => by rw [h m hm]; cases m.1 <;> simp [conjIf]
  simpa using this

/-- Composition: the first table has to agree for the keys read by the second one. -/
theorem comp {A A' : Block S} {B B' : Block String} (hA : Agr okA A A') (hB : Agr ok B B')
    (h : ∀ e ∈ bmarks B, ok e.1 → ∀ m ∈ e.2, okA m.2) : Agr ok (comp A B) (comp A' B') := by
  refine hB.map (f := fun e => e.bind fun k => Dict.getD (ν := Ex S) A k Ex.zero)
    (f' := fun e => e.bind fun k => Dict.getD (ν := Ex S) A' k Ex.zero) fun e he e' hk hv v => ?_
  rw [Ex.val_bind, Ex.val_bind, ← hv]
  refine val_congr _ fun m hm => ?_
  rw [← getD_bval, ← getD_bval]
  exact hA.getD (h (e.1, e.2.marks) (List.mem_map.2 ⟨e, he, rfl⟩) hk m hm) v

/-- Composition with a fixed first table. -/
theorem comp_left (A : Block S) {B B' : Block String} (hB : Agr ok B B') : Agr ok (Verif.comp A B) (Verif.comp A B') :=
  comp (refl (fun _ => True) A) hB fun _ _ _ _ _ => trivial

/-- Composition with a fixed second table. -/
theorem comp_right {A A' : Block S} (B : Block String) (hA : Agr okA A A')
    (h : ∀ e ∈ bmarks B, ok e.1 → ∀ m ∈ e.2, okA m.2) : Agr ok (Verif.comp A B) (Verif.comp A' B) :=
  comp hA (refl ok B) h

theorem put {d d' : Block S} (h : Agr ok d d') {k : String} {e e' : Ex S} (he : ok k → ∀ v, e.val v = e'.val v) :
    Agr ok (Dict.put (ν := Ex S) d k e) (Dict.put (ν := Ex S) d' k e') := by
  unfold Agr at h ⊢
  induction h with
  | nil => exact .cons ⟨rfl, he⟩ .nil
  | @cons a b l l' h hl ih =>
    obtain ⟨ka, ea⟩ := a
    obtain ⟨kb, eb⟩ := b
    obtain ⟨h1, h2⟩ := h
    simp only at h1 h2
    subst h1
    simp only [Dict.put]
    split_ifs with hk
    · subst hk; exact .cons ⟨rfl, he⟩ hl
    · exact .cons ⟨rfl, h2⟩ ih

theorem upd {d d' : Block S} (hd : Agr ok d d') (h : Agr ok B B') :
    Agr ok (Dict.upd (ν := Ex S) d B) (Dict.upd (ν := Ex S) d' B') := by
  revert hd
  unfold Agr at h
  induction h generalizing d d' with
  | nil => intro hd; exact hd
  | @cons a b l l' h hl ih =>
    intro hd
    obtain ⟨ka, ea⟩ := a
    obtain ⟨kb, eb⟩ := b
    obtain ⟨h1, h2⟩ := h
    simp only at h1 h2
    subst h1
    rw [Dict.upd_cons, Dict.upd_cons]
    exact ih (hd.put h2)

theorem ofPairs (h : Agr ok B B') : Agr ok (Dict.ofPairs (ν := Ex S) B) (Dict.ofPairs (ν := Ex S) B') :=
  upd (refl ok []) h

end Agr

/-! ### Factors -/

/-- The name has the input. -/
def hasInput (I : String → Option (List Input)) (n : String) (q : Input) : Bool :=
  match I n with
  | some l => decide (q ∈ l)
  | none => false

/-- All inputs of the name agree. -/
def SameInputs (I : String → Option (List Input)) (P P' : PEnv) (n : String) : Prop :=
  ∃ l, I n = some l ∧ ∀ q ∈ l, q.Same P P'

variable {I : String → Option (List Input)} {n : String}

theorem SameInputs.of (h : SameInputs I P P' n) {q : Input} (hq : hasInput I n q = true) : q.Same P P' := by
  obtain ⟨l, h1, h2⟩ := h
  unfold hasInput at hq
  rw [h1] at hq
  exact h2 q (of_decide_eq_true hq)

/-- The name has all inputs of a list. -/
def hasInputs (I : String → Option (List Input)) (n : String) (l : List Input) : Bool := l.all (hasInput I n)

theorem SameInputs.all (h : SameInputs I P P' n) {l : List Input} (hl : hasInputs I n l = true) : ∀ q ∈ l, q.Same P P' :=
  fun q hq => h.of (List.all_eq_true.1 hl q hq)

section

variable (h : ∀ q ∈ ([.alpha_e] : List Input), q.Same P P')
include h

theorem ev_same : ev P = ev P' := by unfold ev; rw [show P.p.alpha_e = P'.p.alpha_e from h .alpha_e (by simp)]

theorem k8v_same : k8v P = k8v P' := by unfold k8v; rw [ev_same h]

theorem k16v_same : k16v P = k16v P' := by unfold k16v; rw [ev_same h]

end

theorem gv_same (h : ∀ q ∈ ([.alpha_s] : List Input), q.Same P P') : gv P = gv P' := by
  unfold gv; rw [show P.p.alpha_s = P'.p.alpha_s from h .alpha_s (by simp)]

theorem kSv_same (h : ∀ q ∈ ([.alpha_e, .m_b] : List Input), q.Same P P') : kSv P = kSv P' := by
  unfold kSv
  rw [k16v_same fun q hq => h q (by simp_all), show P.p.m_b = P'.p.m_b from h .m_b (by simp)]

theorem kgv_same (h : ∀ q ∈ ([.alpha_e, .alpha_s, .m_b] : List Input), q.Same P P') : kgv P = kgv P' := by
  unfold kgv
  rw [ev_same fun q hq => h q (by simp_all), gv_same fun q hq => h q (by simp_all), show P.p.m_b = P'.p.m_b from h .m_b (by simp)]

theorem kgsv_same (h : ∀ q ∈ ([.alpha_s, .m_b] : List Input), q.Same P P') : kgsv P = kgsv P' := by
  unfold kgsv
  rw [gv_same fun q hq => h q (by simp_all), show P.p.m_b = P'.p.m_b from h .m_b (by simp)]

theorem k7v_same (h : ∀ q ∈ ([.alpha_e, .m_b] : List Input), q.Same P P') : k7v P = k7v P' := by
  unfold k7v
  rw [ev_same fun q hq => h q (by simp_all), show P.p.m_b = P'.p.m_b from h .m_b (by simp)]

theorem k7gv_same (h : ∀ q ∈ ([.alpha_s, .m_b] : List Input), q.Same P P') : k7gv P = k7gv P' := by
  unfold k7gv
  rw [gv_same fun q hq => h q (by simp_all), show P.p.m_b = P'.p.m_b from h .m_b (by simp)]

theorem prefBernv_same (h : ∀ q ∈ ([.GF] : List Input), q.Same P P') : prefBernv P = prefBernv P' := by
  unfold prefBernv; rw [show P.p.GF = P'.p.GF from h .GF (by simp)]

theorem prefIIv_same {u d : Fin 3} (h : ∀ q ∈ ([.GF, .V u d] : List Input), q.Same P P') : prefIIv P u d = prefIIv P' u d := by
  unfold prefIIv
  rw [show P.p.GF = P'.p.GF from h .GF (by simp), show P.V u d = P'.V u d from h (.V u d) (by simp)]

theorem prefEosv_same (h : ∀ q ∈ ([.GF, .V 2 2, .V 2 1] : List Input), q.Same P P') : prefEosv P = prefEosv P' := by
  unfold prefEosv
  rw [show P.p.GF = P'.p.GF from h .GF (by simp), show P.V 2 2 = P'.V 2 2 from h (.V 2 2) (by simp),
    show P.V 2 1 = P'.V 2 1 from h (.V 2 1) (by simp)]

/-- CKM elements of a neutral current. -/
def xiInputs (qq : String) : List Input :=
  if qq = "sb" then [.V 2 2, .V 2 1] else if qq = "db" then [.V 2 2, .V 2 0] else [.V 2 1, .V 2 0]

theorem prefXiv_same {qq : String} (h : ∀ q ∈ .GF :: xiInputs qq, q.Same P P') :
    prefXiv P (xiv P qq) = prefXiv P' (xiv P' qq) := by
  unfold prefXiv
  rw [show P.p.GF = P'.p.GF from h .GF (by simp)]
  have : xiv P qq = xiv P' qq := by
    unfold xiInputs at h
    unfold xiv
    split_ifs at h ⊢
    · rw [show P.V 2 2 = P'.V 2 2 from h (.V 2 2) (by simp), show P.V 2 1 = P'.V 2 1 from h (.V 2 1) (by simp)]
    · rw [show P.V 2 2 = P'.V 2 2 from h (.V 2 2) (by simp), show P.V 2 0 = P'.V 2 0 from h (.V 2 0) (by simp)]
    · rw [show P.V 2 1 = P'.V 2 1 from h (.V 2 1) (by simp), show P.V 2 0 = P'.V 2 0 from h (.V 2 0) (by simp)]
  rw [this]

/-- All inputs of `k` are inputs of `n`. -/
def subInputs (I : String → Option (List Input)) (n : String) (J : String → Option (List Input)) (k : String) : Bool :=
  match J k with
  | some l => hasInputs I n l
  | none => false

theorem SameInputs.sub (h : SameInputs I P P' n) {J : String → Option (List Input)} {k : String} (hk : subInputs I n J k = true) :
    SameInputs J P P' k := by
  unfold subInputs at hk
  cases hJ : J k with
  | none => rw [hJ] at hk; cases hk
  | some l => rw [hJ] at hk; exact ⟨l, hJ, h.all hk⟩

/-! ### Tables -/

/-- Entry by entry. -/
macro "agr_entries" : tactic => `(tactic| repeat' (first | exact List.Forall₂.nil | refine List.Forall₂.cons ⟨rfl, fun h v => ?_⟩ ?_))

section

variable {ok : String → Prop} {a a' b b' c c' : ℝ}

theorem agr_use {l : List String} (h : ∀ n ∈ l, ok n → a = a') {n : String} (hk : ok n) (hn : n ∈ l) : a = a' := h n hn hk

theorem agr_nuTable (ind indnu : String) (h : ∀ n ∈ bkeys (fierzFlavioNuTable ind indnu 0), ok n → a = a') :
    Agr ok (fierzFlavioNuTable ind indnu a) (fierzFlavioNuTable ind indnu a') := by
  unfold fierzFlavioNuTable Agr at *
  agr_entries
  all_goals rw [agr_use h (by assumption) (by simp [bkeys])]

/-- Keys of the scalar operators of flavio. -/
def keysFlScalar (indfl : String) : List String := ["CS_" ++ indfl, "CSp_" ++ indfl, "CP_" ++ indfl, "CPp_" ++ indfl]

theorem agr_lepTable (ind indfl : String) (h1 : ∀ n ∈ ["C9_" ++ indfl, "C9p_" ++ indfl, "C10_" ++ indfl, "C10p_" ++ indfl], ok n → a = a')
    (h2 : ∀ n ∈ keysFlScalar indfl, ok n → b = b') :
    Agr ok (fierzFlavioLepTable ind indfl a b) (fierzFlavioLepTable ind indfl a' b') := by
  unfold fierzFlavioLepTable keysFlScalar Agr at *
  agr_entries
  all_goals first | rw [agr_use h1 (by assumption) (by simp)] | rw [agr_use h2 (by assumption) (by simp)]

theorem agr_flavioFierzTable (ind indfl indnu : String)
    (h0 : ∀ n ∈ ["F" ++ ind ++ "nu", "F" ++ ind ++ "nup"], ok n → a = a')
    (h1 : ∀ n ∈ ["F" ++ ind ++ "9", "F" ++ ind ++ "9p", "F" ++ ind ++ "10", "F" ++ ind ++ "10p"], ok n → b = b')
    (h2 : ∀ n ∈ ["F" ++ ind ++ "S", "F" ++ ind ++ "Sp", "F" ++ ind ++ "P", "F" ++ ind ++ "Pp"], ok n → c = c') :
    Agr ok (flavioFierzLepTable ind indfl indnu a b c) (flavioFierzLepTable ind indfl indnu a' b' c') := by
  unfold flavioFierzLepTable Agr at *
  agr_entries
  all_goals first | rfl | rw [agr_use h0 (by assumption) (by simp)] | rw [agr_use h1 (by assumption) (by simp)] | rw [agr_use h2 (by assumption) (by simp)]

theorem agr_bernChromTable (dd : String) (h1 : ∀ n ∈ ["7gamma" ++ dd, "7pgamma" ++ dd], ok n → a = a')
    (h2 : ∀ n ∈ ["8g" ++ dd, "8pg" ++ dd], ok n → b = b') : Agr ok (fierzBernChromTable dd a b) (fierzBernChromTable dd a' b') := by
  unfold fierzBernChromTable Agr at *
  agr_entries
  all_goals first | rw [agr_use h1 (by assumption) (by simp)] | rw [agr_use h2 (by assumption) (by simp)]

theorem agr_bernFierzChromTable (dd : String) (h1 : ∀ n ∈ ["F7gamma" ++ dd, "F7pgamma" ++ dd], ok n → a = a')
    (h2 : ∀ n ∈ ["F8g" ++ dd, "F8pg" ++ dd], ok n → b = b') : Agr ok (bernFierzChromTable dd a b) (bernFierzChromTable dd a' b') := by
  unfold bernFierzChromTable Agr at *
  agr_entries
  all_goals first | rw [agr_use h1 (by assumption) (by simp)] | rw [agr_use h2 (by assumption) (by simp)]

theorem agr_flavioChromTable (dd ddfl : String) (h1 : ∀ n ∈ ["C7_" ++ ddfl, "C7p_" ++ ddfl], ok n → a = a')
    (h2 : ∀ n ∈ ["C8_" ++ ddfl, "C8p_" ++ ddfl], ok n → b = b') :
    Agr ok (fierzFlavioChromTable dd ddfl a b) (fierzFlavioChromTable dd ddfl a' b') := by
  unfold fierzFlavioChromTable Agr at *
  agr_entries
  all_goals first | rw [agr_use h1 (by assumption) (by simp)] | rw [agr_use h2 (by assumption) (by simp)]

theorem agr_flavioFierzChromTable (dd ddfl : String) (h1 : ∀ n ∈ ["F7gamma" ++ dd, "F7pgamma" ++ dd], ok n → a = a')
    (h2 : ∀ n ∈ ["F8g" ++ dd, "F8pg" ++ dd], ok n → b = b') :
    Agr ok (flavioFierzChromTable dd ddfl a b) (flavioFierzChromTable dd ddfl a' b') := by
  unfold flavioFierzChromTable Agr at *
  agr_entries
  all_goals first | rw [agr_use h1 (by assumption) (by simp)] | rw [agr_use h2 (by assumption) (by simp)]

theorem agr_eosLepTable (ind ind2 : String) (h : ∀ n ∈ bkeys (fierzEosLepTable ind ind2 0), ok n → a = a') :
    Agr ok (fierzEosLepTable ind ind2 a) (fierzEosLepTable ind ind2 a') := by
  unfold fierzEosLepTable Agr at *
  agr_entries
  all_goals rw [agr_use h (by assumption) (by simp [bkeys])]

theorem agr_ffDown (qq : String) (s t : Fin 3) (h1 : ∀ n ∈ ["CAR_" ++ qq, "CAL_" ++ qq], ok n → a = a')
    (h2 : ∀ n ∈ ["CGR_" ++ qq, "CGL_" ++ qq], ok n → b = b') : Agr ok (formFlavorDownTable qq s t a b) (formFlavorDownTable qq s t a' b') := by
  unfold formFlavorDownTable Agr at *
  agr_entries
  all_goals first | rw [agr_use h1 (by assumption) (by simp)] | rw [agr_use h2 (by assumption) (by simp)]

theorem agr_ffUp (qq : String) (s t : Fin 3) (h1 : ∀ n ∈ ["CAR_" ++ qq, "CAL_" ++ qq], ok n → a = a')
    (h2 : ∀ n ∈ ["CGR_" ++ qq, "CGL_" ++ qq], ok n → b = b') : Agr ok (formFlavorUpTable qq s t a b) (formFlavorUpTable qq s t a' b') := by
  unfold formFlavorUpTable Agr at *
  agr_entries
  all_goals first | rw [agr_use h1 (by assumption) (by simp)] | rw [agr_use h2 (by assumption) (by simp)]

theorem agr_ffLep (qq : String) (s t : Fin 3) (h1 : ok ("CAR_" ++ qq) → a = a') (h2 : ok ("CAL_" ++ qq) → b = b') :
    Agr ok (formFlavorLepTable qq s t a b) (formFlavorLepTable qq s t a' b') := by
  unfold formFlavorLepTable Agr at *
  agr_entries
  · rw [h1 (by assumption)]
  · rw [h2 (by assumption)]

end

end Verif
