import Verif.Spec.Cp
import Verif.Lemmas.WetEosFF

/-! Complex conjugation of the SMEFT translators and of the matching. -/

set_option autoImplicit false

namespace Verif

open Spec

local notation "K" => starRingEnd ℂ

theorem conjValues_eq (d : Dict String ℂ) : conjValues d = Dict.mapVals K d := rfl

/-- Two computations one after the other. -/
theorem bind_map_of {α α' β β' : Type} {f : α → α'} {h : β → β'} {x : Except PyErr α} {g : α → Except PyErr β}
    {g' : α' → Except PyErr β'} (hg : ∀ a, g' (f a) = (g a).map h) : (x.map f >>= g') = (x >>= g).map h := by
  cases x with
  | error e => rfl
  | ok a => exact hg a

/-- As above with the same first computation. -/
theorem bind_map_same {α β β' : Type} {h : β → β'} {x : Except PyErr α} {g : α → Except PyErr β}
    {g' : α → Except PyErr β'} (hg : ∀ a, g' a = (g a).map h) : (x >>= g') = (x >>= g).map h := by
  cases x with
  | error e => rfl
  | ok a => exact hg a

theorem foldlM_map_of {σ σ' α α' : Type} {f : σ → σ'} {k : α → α'} {step : σ → α → Except PyErr σ}
    {step' : σ' → α' → Except PyErr σ'} (h : ∀ s a, step' (f s) (k a) = (step s a).map f) (l : List α) (s : σ) :
    (l.map k).foldlM step' (f s) = (l.foldlM step s).map f := by
  induction l generalizing s with
  | nil => rfl
  | cons a l ih =>
    rw [List.map_cons, List.foldlM_cons, List.foldlM_cons, h]
    exact bind_map_of ih

/-- Entrywise conjugate. -/
noncomputable def Arr.cc : Arr → Arr
  | .num v => .num (K v)
  | .one v => .one (K v)
  | .mat m => .mat fun i => K (m i)
  | .ten t => .ten fun i => K (t i)

/-- Conjugates of arrays. -/
noncomputable def conjArrs (C : Dict String Arr) : Dict String Arr := Dict.mapVals Arr.cc C

theorem setAt_cc (a : Arr) (idx : List (Fin 3)) (v : ℂ) : a.cc.setAt idx (K v) = (a.setAt idx v).map Arr.cc := by
  cases a with
  | num x => rfl
  | one x => rfl
  | mat m =>
    simp only [Arr.setAt, Arr.cc]
    split_ifs
    · rfl
    · simp only [Except.map, Arr.cc, apply_ite (starRingEnd ℂ)]
  | ten t =>
    simp only [Arr.setAt, Arr.cc]
    split_ifs
    · rfl
    · simp only [Except.map, Arr.cc, apply_ite (starRingEnd ℂ)]

theorem setInd_cc (a : Arr) (ind : List Char) (v : ℂ) : a.cc.setInd ind (K v) = (a.setInd ind v).map Arr.cc :=
  bind_map_same fun _ => bind_map_same fun idx => setAt_cc a idx v

theorem get_mapVals {ν ν' : Type} (f : ν → ν') (d : Dict String ν) (k : String) :
    Dict.get (Dict.mapVals f d) k = (Dict.get d k).map f := by
  unfold Dict.get
  rw [Dict.find_mapVals]
  cases Dict.find d k <;> rfl

theorem has_mapVals {ν ν' : Type} (f : ν → ν') (d : Dict String ν) (k : String) :
    Dict.has (Dict.mapVals f d) k = Dict.has d k := by
  unfold Dict.has
  rw [Dict.find_mapVals]
  cases Dict.find d k <;> rfl

theorem zeros_cc (s : Shape) : s.zeros.cc = s.zeros := by
  cases s <;> simp [Shape.zeros, Arr.cc]

theorem step_cc (C : Dict String Arr) (kv : String × ℂ) :
    wcxf2arraysStep (conjArrs C) (kv.1, K kv.2) = (wcxf2arraysStep C kv).map conjArrs := by
  obtain ⟨k, v⟩ := kv
  unfold wcxf2arraysStep
  refine bind_map_same fun s => ?_
  by_cases hs : s = .one
  · simp only [hs, if_true]
    change Except.ok (Dict.put (conjArrs C) k (Arr.num v).cc) = Except.ok _
    rw [conjArrs, put_mapVals]; rfl
  · simp only [hs, if_false]
    have hC : (if Dict.has (conjArrs C) (headPart k) then conjArrs C else Dict.put (conjArrs C) (headPart k) s.zeros) =
        conjArrs (if Dict.has C (headPart k) then C else Dict.put C (headPart k) s.zeros) := by
      rw [conjArrs, has_mapVals]
      split_ifs
      · rfl
      · conv_lhs => rw [← zeros_cc s]
        rw [put_mapVals]; rfl
    rw [hC]
    generalize (if Dict.has C (headPart k) then C else Dict.put C (headPart k) s.zeros) = D
    rw [conjArrs, get_mapVals]
    refine bind_map_of fun a => ?_
    rw [setInd_cc]
    refine bind_map_of fun b => ?_
    rw [put_mapVals]; rfl

theorem wcxf2arrays_cc (d : Dict String ℂ) : wcxf2arrays (conjValues d) = (wcxf2arrays d).map conjArrs :=
  foldlM_map_of (f := conjArrs) (k := fun p : String × ℂ => (p.1, K p.2)) step_cc d []

theorem exec_cc {I : Type} [DecidableEq I] (a : I → ℂ) (s : Asg I) (i : I) :
    Asg.exec (fun j => K (a j)) s i = K (Asg.exec a s i) := by
  cases s <;>
    (simp only [Asg.exec, Function.update_apply]; split_ifs <;> first | rfl | (apply Complex.ext <;> simp) )

theorem execProg_cc {I : Type} [DecidableEq I] (prog : List (Asg I)) (b : I → ℂ) :
    execProg prog (fun j => K (b j)) = fun j => K (execProg prog b j) := by
  unfold execProg
  induction prog generalizing b with
  | nil => rfl
  | cons s prog ih =>
    rw [List.foldl_cons, List.foldl_cons, show Asg.exec (fun j => K (b j)) s = fun j => K (Asg.exec b s j) from
      funext (exec_cc b s), ih]

theorem onMat_cc {f f' : (Ix2 → ℂ) → Ix2 → ℂ} (h : ∀ m, f' (fun i => K (m i)) = fun i => K (f m i)) (a : Arr) :
    a.cc.onMat f' = (a.onMat f).map Arr.cc := by
  cases a <;> first | rfl | (simp only [Arr.cc, Arr.onMat, h]; rfl)

theorem onTen_cc {f f' : (Ix4 → ℂ) → Ix4 → ℂ} (h : ∀ m, f' (fun i => K (m i)) = fun i => K (f m i)) (a : Arr) :
    a.cc.onTen f' = (a.onTen f).map Arr.cc := by
  cases a <;> first | rfl | (simp only [Arr.cc, Arr.onTen, h]; rfl)

theorem except_map_map {α β γ : Type} (f : α → β) (g : β → γ) (x : Except PyErr α) :
    (x.map f).map g = x.map fun a => g (f a) := by cases x <;> rfl

theorem real_cc (a : Arr) : a.cc.real = a.real.cc := by
  cases a <;> simp [Arr.cc, Arr.real]

theorem symEntry_cc (i : String) (v : Arr) : symEntry i v.cc = (symEntry i v).map (Option.map Arr.cc) := by
  unfold symEntry
  have key : ∀ x : Except PyErr Arr, (x.map Arr.cc).map some = (x.map some).map (Option.map Arr.cc) := by
    intro x; cases x <;> rfl
  split_ifs
  · rw [real_cc]; rfl
  · rfl
  · rw [← key, ← onMat_cc (f := symmetrize2) (f' := symmetrize2) (execProg_cc prog2)]
  · rw [← key, ← onTen_cc (f := symmetrize4) (f' := symmetrize4) (execProg_cc prog4)]
  · rw [← key, ← onTen_cc (f := symmetrize5) (f' := symmetrize5) (execProg_cc prog5)]
  · rw [← key, ← onTen_cc (f := symmetrize6) (f' := symmetrize6) (execProg_cc prog6)]
  · rw [← key, ← onTen_cc (f := symmetrize7) (f' := symmetrize7) (execProg_cc prog7)]
  · rw [← key, ← onTen_cc (f := symmetrize8) (f' := symmetrize8) (execProg_cc prog8)]
  · rw [← key, ← onMat_cc (f := symmetrize9) (f' := symmetrize9) (execProg_cc prog9)]
  · rfl

theorem symmetrize_cc (C : Dict String Arr) : symmetrize (conjArrs C) = (symmetrize C).map conjArrs := by
  induction C with
  | nil => rfl
  | cons p C ih =>
    obtain ⟨i, v⟩ := p
    change symmetrize ((i, v.cc) :: conjArrs C) = _
    unfold symmetrize
    rw [symEntry_cc]
    refine bind_map_of fun o => ?_
    rw [ih]
    refine bind_map_of fun rest => ?_
    cases o <;> rfl

/-- Rotation matrices conjugated. -/
noncomputable def Rot.cc (U : Rot) : Rot := ⟨conj U.q, conj U.u, conj U.d, conj U.l, conj U.e⟩

theorem conj_conj3 (A : M3) : conj (conj A) = A := by
  ext i j; simp [conj]

theorem matmul_cc (L R : M3) (a : Arr) : matmul (conj L) (conj R) a.cc = (matmul L R a).map Arr.cc := by
  refine onMat_cc (fun m => ?_) a
  funext i
  simp only [Matrix.mul_apply, conj, Matrix.map_apply, Matrix.of_apply, map_sum, map_mul]

theorem einsum4_cc (A B C D : M3) (a : Arr) :
    einsum4 (conj A) (conj B) (conj C) (conj D) a.cc = (einsum4 A B C D a).map Arr.cc := by
  refine onTen_cc (fun m => ?_) a
  funext i
  simp only [conj, Matrix.map_apply, map_sum, map_mul]

theorem transpose_conj3 (A : M3) : (conj A).transpose = conj A.transpose := rfl

theorem rotRules_cc (U : Rot) : List.Forall₂
    (fun r r' : String × (Arr → Except PyErr Arr) => r.1 = r'.1 ∧ ∀ a : Arr, r'.2 a.cc = (r.2 a).map Arr.cc)
    (rotRules U) (rotRules U.cc) := by
  have mm : ∀ (k : String) (L R L' R' : M3), L' = conj L → R' = conj R →
      k = k ∧ ∀ a : Arr, matmul L' R' a.cc = (matmul L R a).map Arr.cc := by
    intro k L R L' R' h h'; subst h h'; exact ⟨rfl, matmul_cc L R⟩
  have ee : ∀ (k : String) (A B C D A' B' C' D' : M3), A' = conj A → B' = conj B → C' = conj C → D' = conj D →
      k = k ∧ ∀ a : Arr, einsum4 A' B' C' D' a.cc = (einsum4 A B C D a).map Arr.cc := by
    intro k A B C D A' B' C' D' h1 h2 h3 h4; subst h1 h2 h3 h4; exact ⟨rfl, einsum4_cc A B C D⟩
  unfold rotRules
  refine List.rel_append (List.rel_append (List.rel_append (List.rel_append (List.rel_append (List.rel_append
    (List.rel_append ?_ ?_) ?_) ?_) ?_) ?_) ?_) ?_
  · rw [List.forall₂_map_left_iff, List.forall₂_map_right_iff, List.forall₂_same]
    exact fun _ _ => ⟨rfl, fun _ => rfl⟩
  iterate 5
    · rw [List.forall₂_map_left_iff, List.forall₂_map_right_iff, List.forall₂_same]
      exact fun k _ => mm k _ _ _ _ rfl rfl
  · refine .cons (mm _ _ _ _ _ rfl rfl) (.cons (mm _ _ _ _ _ rfl rfl) (.cons (mm _ _ _ _ _ rfl rfl)
      (.cons (mm _ _ _ _ _ rfl rfl) (.cons (mm _ _ _ _ _ rfl rfl) .nil))))
  · repeat' (first | exact .nil | refine .cons (ee _ _ _ _ _ _ _ _ _ rfl rfl rfl rfl) ?_)

theorem applyRules_cc (C : Dict String Arr) {R R' : List (String × (Arr → Except PyErr Arr))}
    (h : List.Forall₂ (fun r r' : String × (Arr → Except PyErr Arr) => r.1 = r'.1 ∧ ∀ a : Arr, r'.2 a.cc = (r.2 a).map Arr.cc) R R') :
    applyRules (conjArrs C) R' = (applyRules C R).map conjArrs := by
  induction h with
  | nil => rfl
  | @cons r r' R R' hr _ ih =>
    obtain ⟨k, f⟩ := r
    obtain ⟨k', f'⟩ := r'
    obtain ⟨rfl, hf⟩ := hr
    unfold applyRules
    rw [conjArrs, Dict.find_mapVals]
    cases Dict.find C k with
    | none => exact ih
    | some v =>
      simp only [Option.map_some]
      rw [show f' v.cc = (f v).map Arr.cc from hf v]
      refine bind_map_of fun a => ?_
      change (applyRules (conjArrs C) _ >>= _) = _
      rw [ih]
      exact bind_map_of fun rest => rfl

theorem flavorRotation_cc (C : Dict String Arr) (U : Rot) :
    flavorRotation (conjArrs C) U.cc = (flavorRotation C U).map conjArrs := applyRules_cc C (rotRules_cc U)

theorem flatEntries_cc (k : String) (a : Arr) : flatEntries k a.cc = (flatEntries k a).map fun p => (p.1, K p.2) := by
  cases a with
  | num v => rfl
  | one v => rfl
  | mat m => simp only [flatEntries, Arr.cc, List.map_map]; rfl
  | ten t => simp only [flatEntries, Arr.cc, List.map_map]; rfl

theorem ofPairs_cc (l : Dict String ℂ) : Dict.ofPairs (conjValues l) = conjValues (Dict.ofPairs l) := ofPairs_mapVals K l

theorem arrays2wcxf_cc (C : Dict String Arr) : arrays2wcxf (conjArrs C) = conjValues (arrays2wcxf C) := by
  unfold arrays2wcxf
  rw [← ofPairs_cc]
  congr 1
  induction C with
  | nil => rfl
  | cons p C ih =>
    have : conjArrs (p :: C) = (p.1, p.2.cc) :: conjArrs C := rfl
    rw [this, List.flatMap_cons, List.flatMap_cons, ih, flatEntries_cc]
    simp only [conjValues, List.map_append]

theorem filt_cc (L : List String) (d : Dict String ℂ) :
    Dict.filt (fun k _ => decide (k ∈ L)) (conjValues d) = conjValues (Dict.filt (fun k _ => decide (k ∈ L)) d) := by
  induction d with
  | nil => rfl
  | cons p d ih =>
    simp only [Dict.filt, conjValues, List.map_cons, List.filter_cons] at ih ⊢
    by_cases h : p.1 ∈ L
    · simp only [h, decide_true, if_true, List.map_cons, ih]
    · simp only [h, decide_false, Bool.false_eq_true, if_false, ih]

/-! ### Parameters -/

theorem get_flip {default : Par} {par par' : Option Par} (hf : FlipsPhase default par par') {k : String} (hk : k ≠ "gamma") :
    Dict.get (withPar default par') k = Dict.get (withPar default par) k := by
  unfold Dict.get; rw [hf.1 k hk]

theorem get_flip_gamma {default : Par} {par par' : Option Par} (hf : FlipsPhase default par par') :
    Dict.get (withPar default par') "gamma" = (Dict.get (withPar default par) "gamma").map Neg.neg := by
  unfold Dict.get; rw [hf.2]; cases Dict.find (withPar default par) "gamma" <;> rfl

theorem ckmOf_cc {ckm : ℝ → ℝ → ℝ → ℝ → M3} (hc : PhaseOnly ckm) {default : Par} {par par' : Option Par}
    (hf : FlipsPhase default par par') :
    ckmOf ckm (withPar default par') = (ckmOf ckm (withPar default par)).map conj := by
  unfold ckmOf
  rw [get_flip hf (by decide), get_flip hf (by decide), get_flip hf (by decide), get_flip_gamma hf]
  refine bind_map_same fun a => bind_map_same fun b => bind_map_same fun c => bind_map_of fun g => ?_
  refine congrArg Except.ok ?_
  ext i j
  exact hc a b c g i j

theorem rotateWarsaw_cc {Uq : M3 → M3} (hU : ∀ V, Uq (conj V) = conj (Uq V)) {ckm : ℝ → ℝ → ℝ → ℝ → M3} (hc : PhaseOnly ckm)
    (L : List String) {default : Par} {par par' : Option Par} (hf : FlipsPhase default par par') (C : Dict String ℂ) :
    rotateWarsaw Uq ckm L default (conjValues C) par' = (rotateWarsaw Uq ckm L default C par).map conjValues := by
  unfold rotateWarsaw
  rw [wcxf2arrays_cc]
  refine bind_map_of fun A => ?_
  rw [symmetrize_cc]
  refine bind_map_of fun A => ?_
  dsimp only
  rw [ckmOf_cc hc hf]
  refine bind_map_of fun V => ?_
  have h1 : (1 : M3) = conj 1 := by
    ext i j; simp only [conj, Matrix.map_apply, Matrix.one_apply]; split_ifs <;> simp
  have : (⟨Uq (conj V), 1, 1, 1, 1⟩ : Rot) = Rot.cc ⟨Uq V, 1, 1, 1, 1⟩ := by
    simp only [Rot.cc, ← h1, hU]
  rw [this, flavorRotation_cc]
  refine bind_map_of fun A => ?_
  rw [arrays2wcxf_cc, filt_cc]; rfl

theorem conjTranspose_cc (V : M3) : (conj V).conjTranspose = conj V.conjTranspose := rfl

theorem smeftToarray_cc (name : String) (d : Dict String ℂ) : smeftToarray name (conjValues d) = (smeftToarray name d).map Arr.cc := by
  unfold smeftToarray
  refine bind_map_same fun s => ?_
  have := foldlM_map_of (f := Arr.cc) (k := fun p : String × ℂ => (p.1, K p.2)) (step := toarrayStep name) (step' := toarrayStep name)
    (fun a p => by
      unfold toarrayStep
      split_ifs
      · rfl
      · exact setInd_cc _ _ _) d s.zeros
  rw [zeros_cc] at this
  rw [conjValues, this]
  refine bind_map_of fun A => ?_
  rw [show ([(name, A.cc)] : Dict String Arr) = conjArrs [(name, A)] from rfl, symmetrize_cc]
  refine bind_map_of fun A => ?_
  exact get_mapVals _ _ _

theorem upd_cc (d e : Dict String ℂ) : Dict.upd (conjValues d) (conjValues e) = conjValues (Dict.upd d e) := by
  induction e generalizing d with
  | nil => rfl
  | cons p e ih =>
    have : conjValues (p :: e) = (p.1, K p.2) :: conjValues e := rfl
    rw [this, Dict.upd_cons, Dict.upd_cons, ← ih]
    congr 1
    exact put_mapVals K d p.1 p.2

theorem fromarray_cc (name : String) (a : Arr) : smeftFromarray name a.cc = conjValues (smeftFromarray name a) := by
  unfold smeftFromarray
  rw [flatEntries_cc, ← ofPairs_cc]; rfl

theorem rotateU_cc {ckm : ℝ → ℝ → ℝ → ℝ → M3} (hc : PhaseOnly ckm) {default : Par} {par par' : Option Par}
    (hf : FlipsPhase default par par') (C out : Dict String ℂ) (name : String) :
    rotateU ckm (withPar default par') (conjValues C) (conjValues out) name =
      (rotateU ckm (withPar default par) C out name).map conjValues := by
  unfold rotateU
  rw [smeftToarray_cc]
  refine bind_map_of fun a => ?_
  rw [ckmOf_cc hc hf]
  refine bind_map_of fun V => ?_
  dsimp only
  rw [onMat_cc (f := fun m i => (V.conjTranspose.conjTranspose * Matrix.of fun x y => m (x, y)) i.1 i.2)]
  · refine bind_map_of fun b => ?_
    rw [fromarray_cc, upd_cc]; rfl
  · intro m
    funext i
    simp only [Matrix.mul_apply, conj, Matrix.conjTranspose_conjTranspose, Matrix.map_apply, Matrix.of_apply, map_sum, map_mul]

theorem warsawmass_cc {ckm : ℝ → ℝ → ℝ → ℝ → M3} (hc : PhaseOnly ckm) {msvd : M3 → Fin 3 → ℝ} (hm : ∀ M, msvd (conj M) = msvd M)
    {default : Par} {par par' : Option Par} (hf : FlipsPhase default par par') (C : Dict String ℂ) :
    warsawToWarsawmass ckm msvd default (conjValues C) par' = (warsawToWarsawmass ckm msvd default C par).map conjValues := by
  unfold warsawToWarsawmass
  have := foldlM_map_of (f := conjValues) (k := fun s : String => s) (step := rotateU ckm (withPar default par) C)
    (step' := rotateU ckm (withPar default par') (conjValues C)) (fun s a => rotateU_cc hc hf C s a) ["uphi", "uG", "uW", "uB"] C
  rw [List.map_id'] at this
  dsimp only
  rw [this]
  refine bind_map_of fun out => ?_
  rw [smeftToarray_cc]
  refine bind_map_of fun a => ?_
  rw [onMat_cc (f := fun m i => if i.1 = i.2 then (msvd (Matrix.of fun x y => m (x, y)) i.1 : ℂ) else 0)]
  · refine bind_map_of fun b => ?_
    rw [fromarray_cc, upd_cc]; rfl
  · intro m
    funext i
    have : (Matrix.of fun x y => K (m (x, y)) : M3) = conj (Matrix.of fun x y => m (x, y)) := rfl
    rw [this, hm]
    split_ifs <;> simp

end Verif
