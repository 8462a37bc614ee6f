import Verif.Lemmas.WetLemmas
import Verif.Spec.Wet

/-! Composition of coefficient tables and the normalisation factors of the WET translators. -/

set_option autoImplicit false

namespace Verif

variable {S T : Type}

/-- Substitution of expressions for entries. -/
def Ex.bind (f : S → Ex T) : Ex S → Ex T
  | .src s => f s
  | .zero => .zero
  | .cj e => .cj (e.bind f)
  | .neg e => .neg (e.bind f)
  | .add a b => .add (a.bind f) (b.bind f)
  | .sub a b => .sub (a.bind f) (b.bind f)
  | .smul c e => .smul c (e.bind f)
  | .sdiv e c => .sdiv (e.bind f) c

theorem Ex.val_bind (f : S → Ex T) (v : T → ℂ) (e : Ex S) : (e.bind f).val v = e.val fun s => (f s).val v := by
  induction e with
  | src s => rfl
  | zero => rfl
  | cj e ih => simp only [Ex.bind, Ex.val, ih]
  | neg e ih => simp only [Ex.bind, Ex.val, ih]
  | add a b iha ihb => simp only [Ex.bind, Ex.val, iha, ihb]
  | sub a b iha ihb => simp only [Ex.bind, Ex.val, iha, ihb]
  | smul c e ih => simp only [Ex.bind, Ex.val, ih]
  | sdiv e c ih => simp only [Ex.bind, Ex.val, ih]

/-- The table `b'` read on the dictionary given by the table `b`. -/
def comp (b : Block S) (b' : Block String) : Block S :=
  b'.map fun p => (p.1, p.2.bind fun k => Dict.getD (ν := Ex S) b k Ex.zero)

theorem getD_bval (v : S → ℂ) (b : Block S) (k : String) :
    Dict.getD (bval v b) k 0 = (Dict.getD (ν := Ex S) b k Ex.zero).val v := by
  have : bval v b = Dict.mapVals (fun e : Ex S => e.val v) b := rfl
  rw [this, Dict.getD, Dict.find_mapVals, Dict.getD]
  cases Dict.find (ν := Ex S) b k <;> rfl

theorem bval_comp (v : S → ℂ) (b : Block S) (b' : Block String) :
    bval v (comp b b') = bval (fun k => Dict.getD (bval v b) k 0) b' := by
  simp only [bval, comp, List.map_map]
  refine List.map_congr_left fun p _ => ?_
  simp only [Function.comp_def, Ex.val_bind]
  congr 2
  funext k
  exact (getD_bval v b k).symm

theorem bkeys_comp (b : Block S) (b' : Block String) : bkeys (comp b b') = bkeys b' := by
  simp [bkeys, comp]

theorem call2_comp {rd : S → Except PyErr ℂ} {v : S → ℂ} {b : Block S} {b' : Block String}
    (h : ∀ s ∈ bsources b, rd s = .ok (v s)) (hb' : ∀ k ∈ bsources b', k ∈ bkeys b) :
    call2 rd (.ok b) (.ok b') = .ok (bval v (comp b b')) := by
  rw [call2_ok h hb', bval_comp]

theorem call_ok {rd : S → Except PyErr ℂ} {v : S → ℂ} {b : Block S} (h : ∀ s ∈ bsources b, rd s = .ok (v s)) :
    call rd (.ok b) = .ok (bval v b) := evalBlock_ok _ h

/-- A sequence of updates builds the dictionary of all pairs. -/
theorem updAll_ofPairs {bs : List (Block S)} {v : S → ℂ} :
    updAll (bs.map fun b => Except.ok (bval v b)) [] = .ok (Dict.ofPairs (bval v bs.flatten)) := by
  have : ∀ (bs : List (Block S)) (d : Dict String ℂ),
      updAll (bs.map fun b => Except.ok (bval v b)) d = .ok (Dict.upd d (bval v bs.flatten)) := by
    intro bs
    induction bs with
    | nil => intro d; rfl
    | cons b bs ih =>
      intro d
      rw [List.map_cons, updAll, except_ok_bind, ih, List.flatten_cons, bval_append, Dict.upd_append]
  exact this bs []

theorem bkeys_flatten (bs : List (Block S)) : bkeys bs.flatten = bs.flatMap bkeys := by
  simp only [bkeys, List.map_flatten, List.flatMap]; rfl

theorem WF_bval {v : S → ℂ} {b : Block S} (h : (bkeys b).Nodup) : Dict.WF (bval v b) := by
  unfold Dict.WF; rw [keys_bval]; exact h

/-! ### Numbers instead of strings -/

/-- A number for a string; different numbers belong to different strings. -/
def scode (s : String) : ℕ := s.toList.foldl (fun a c => a * 128 + c.toNat) 0

/-- Distinctness of a list of numbers, by splitting according to the binary digits. -/
def nodupR : ℕ → ℕ → List ℕ → Bool
  | 0, _, L => decide L.Nodup
  | _ + 1, _, [] => true
  | _ + 1, _, [_] => true
  | n + 1, m, a :: b :: L =>
    nodupR n (2 * m) ((a :: b :: L).filter fun x => Nat.beq (x / m % 2) 0) &&
    nodupR n (2 * m) ((a :: b :: L).filter fun x => !Nat.beq (x / m % 2) 0)

theorem nodup_of_filter {α : Type} {L : List α} (p : α → Bool) (h : (L.filter p).Nodup) (h' : (L.filter fun x => !p x).Nodup) :
    L.Nodup := by
  induction L with
  | nil => exact List.nodup_nil
  | cons a L ih =>
    cases hp : p a with
    | true =>
      rw [List.filter_cons_of_pos (by simp [hp])] at h
      rw [List.filter_cons_of_neg (by simp [hp])] at h'
      refine List.nodup_cons.2 ⟨fun ha => (List.nodup_cons.1 h).1 (List.mem_filter.2 ⟨ha, hp⟩), ih (List.nodup_cons.1 h).2 h'⟩
    | false =>
      rw [List.filter_cons_of_neg (by simp [hp])] at h
      rw [List.filter_cons_of_pos (by simp [hp])] at h'
      refine List.nodup_cons.2 ⟨fun ha => (List.nodup_cons.1 h').1 (List.mem_filter.2 ⟨ha, by simp [hp]⟩), ih h (List.nodup_cons.1 h').2⟩

theorem nodup_of_nodupR {n m : ℕ} {L : List ℕ} (h : nodupR n m L = true) : L.Nodup := by
  induction n generalizing m L with
  | zero => exact of_decide_eq_true h
  | succ n ih =>
    match L, h with
    | [], _ => exact List.nodup_nil
    | [_], _ => exact List.nodup_singleton _
    | a :: b :: L, h =>
      rw [nodupR, Bool.and_eq_true] at h
      exact nodup_of_filter _ (ih h.1) (ih h.2)
theorem nodup_of_codes {L : List String} (cs : List ℕ) (h : L.map scode = cs) (h' : nodupR 40 1 cs = true) : L.Nodup := by
  subst h; exact (nodup_of_nodupR h').of_map

/-! ### Factors -/

section Factors

variable {P : PEnv}

noncomputable def ev (P : PEnv) : ℝ := Real.sqrt (4 * Real.pi * P.p.alpha_e)
noncomputable def gv (P : PEnv) : ℝ := Real.sqrt (4 * Real.pi * P.p.alpha_s)
noncomputable def prefIIv (P : PEnv) (u d : Fin 3) : ℂ := ((-Real.sqrt 2 / P.p.GF : ℝ) : ℂ) / P.V u d / 4
noncomputable def prefXiv (P : PEnv) (xi : ℂ) : ℂ := ((Real.sqrt 2 / P.p.GF : ℝ) : ℂ) / xi / 4
noncomputable def prefEosv (P : PEnv) : ℂ :=
  ((Real.sqrt 2 / P.p.GF : ℝ) : ℂ) / P.V 2 2 / (starRingEnd ℂ (P.V 2 1)) / 4
noncomputable def prefBernv (P : PEnv) : ℝ := Real.sqrt 2 / P.p.GF / 4
noncomputable def xiv (P : PEnv) (dd : String) : ℂ :=
  if dd = "sb" then P.V 2 2 * starRingEnd ℂ (P.V 2 1)
  else if dd = "db" then P.V 2 2 * starRingEnd ℂ (P.V 2 0)
  else P.V 2 1 * starRingEnd ℂ (P.V 2 0)

theorem divE_ok {x y : ℝ} (h : y ≠ 0) : divE x y = .ok (x / y) := by simp [divE, h]
theorem divC_ok {x y : ℂ} (h : y ≠ 0) : divC x y = .ok (x / y) := by simp [divC, h]

theorem sqrt2_ne : Real.sqrt 2 ≠ 0 := by
  rw [Real.sqrt_ne_zero']; norm_num

theorem ev_ne (h : Spec.Admissible P) : ev P ≠ 0 := by
  unfold ev; rw [Real.sqrt_ne_zero']
  have := h.alpha_e; positivity

theorem gv_ne (h : Spec.Admissible P) : gv P ≠ 0 := by
  unfold gv; rw [Real.sqrt_ne_zero']
  have := h.alpha_s; positivity

theorem e_ok (h : Spec.Admissible P) : P.e = .ok (ev P) := by
  have : ¬ 4 * Real.pi * P.p.alpha_e < 0 := not_lt.2 (by have := h.alpha_e; positivity)
  simp [PEnv.e, sqrtE, this, ev]

theorem gs_ok (h : Spec.Admissible P) : P.gs = .ok (gv P) := by
  have : ¬ 4 * Real.pi * P.p.alpha_s < 0 := not_lt.2 (by have := h.alpha_s; positivity)
  simp [PEnv.gs, sqrtE, this, gv]

theorem prefII_ok (h : Spec.Admissible P) (u d : Fin 3) : prefII P u d = .ok (prefIIv P u d) := by
  unfold prefII
  rw [divE_ok h.GF, except_ok_bind, divC_ok (h.V u d), except_ok_bind]; rfl

theorem prefIIv_ne (h : Spec.Admissible P) (u d : Fin 3) : prefIIv P u d ≠ 0 := by
  unfold prefIIv
  have h1 : ((-Real.sqrt 2 / P.p.GF : ℝ) : ℂ) ≠ 0 := by
    exact_mod_cast div_ne_zero (neg_ne_zero.2 sqrt2_ne) h.GF
  exact div_ne_zero (div_ne_zero h1 (h.V u d)) (by norm_num)

theorem sqrtGF_ne (h : Spec.Admissible P) : ((Real.sqrt 2 / P.p.GF : ℝ) : ℂ) ≠ 0 := by
  exact_mod_cast div_ne_zero sqrt2_ne h.GF

theorem prefXi_ok (h : Spec.Admissible P) {xi : ℂ} (hx : xi ≠ 0) : prefXi P xi = .ok (prefXiv P xi) := by
  unfold prefXi
  rw [divE_ok h.GF, except_ok_bind, divC_ok hx, except_ok_bind]; rfl

theorem prefXiv_ne (h : Spec.Admissible P) {xi : ℂ} (hx : xi ≠ 0) : prefXiv P xi ≠ 0 :=
  div_ne_zero (div_ne_zero (sqrtGF_ne h) hx) (by norm_num)

theorem prefEos_ok (h : Spec.Admissible P) : prefEos P = .ok (prefEosv P) := by
  unfold prefEos
  rw [divE_ok h.GF, except_ok_bind, divC_ok (h.V 2 2), except_ok_bind, divC_ok, except_ok_bind]
  · rfl
  · exact (map_ne_zero _).2 (h.V 2 1)

theorem prefBern_ok (h : Spec.Admissible P) : prefBern P = .ok (prefBernv P) := by
  unfold prefBern
  rw [divE_ok h.GF, except_ok_bind]; rfl

theorem prefBernv_ne (h : Spec.Admissible P) : (prefBernv P : ℂ) ≠ 0 := by
  have : prefBernv P ≠ 0 := div_ne_zero (div_ne_zero sqrt2_ne h.GF) (by norm_num)
  exact_mod_cast this

theorem xiv_ne (h : Spec.Admissible P) (dd : String) : xiv P dd ≠ 0 := by
  unfold xiv
  split_ifs <;> exact mul_ne_zero (h.V _ _) ((map_ne_zero _).2 (h.V _ _))

theorem xiOf_ok {dd : String} (hd : dd ∈ ["sb", "db", "ds"]) : xiOf P dd = .ok (xiv P dd) := by
  simp only [List.mem_cons, List.not_mem_nil, or_false] at hd
  rcases hd with rfl | rfl | rfl <;> simp [xiOf, xiv]

end Factors

end Verif
