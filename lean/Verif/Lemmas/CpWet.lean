import Verif.Lemmas.CpSmeft
import Verif.Lemmas.WetClosed
import Verif.Model.FlavorKit

/-! Complex conjugation of the WET translators. -/

set_option autoImplicit false

namespace Verif

open Spec

local notation "K" => starRingEnd ℂ

variable {S T : Type} {P P' : PEnv}

/-- The expression with all scalars conjugated. -/
noncomputable def Ex.cc : Ex S → Ex S
  | .src s => .src s
  | .zero => .zero
  | .cj e => .cj e.cc
  | .neg e => .neg e.cc
  | .add a b => .add a.cc b.cc
  | .sub a b => .sub a.cc b.cc
  | .smul c e => .smul (K c) e.cc
  | .sdiv e c => .sdiv e.cc (K c)

theorem Ex.val_cc (v : S → ℂ) (e : Ex S) : e.cc.val (fun s => K (v s)) = K (e.val v) := by
  induction e with
  | src s => rfl
  | zero => simp [Ex.cc, Ex.val]
  | cj e ih => simp only [Ex.cc, Ex.val, ih]
  | neg e ih => simp only [Ex.cc, Ex.val, ih, map_neg]
  | add a b iha ihb => simp only [Ex.cc, Ex.val, iha, ihb, map_add]
  | sub a b iha ihb => simp only [Ex.cc, Ex.val, iha, ihb, map_sub]
  | smul c e ih => simp only [Ex.cc, Ex.val, ih, map_mul]
  | sdiv e c ih => simp only [Ex.cc, Ex.val, ih, map_div₀]

/-- Tables with all scalars conjugated. -/
noncomputable def bcc (B : Block S) : Block S := B.map fun p => (p.1, p.2.cc)

theorem bval_bcc (v : S → ℂ) (B : Block S) : bval (fun s => K (v s)) (bcc B) = conjValues (bval v B) := by
  simp only [bval, bcc, conjValues, List.map_map, Function.comp_def, Ex.val_cc]

theorem bcc_append (A B : Block S) : bcc (A ++ B) = bcc A ++ bcc B := List.map_append

theorem bcc_flatten (L : List (Block S)) : bcc L.flatten = (L.map bcc).flatten := by
  induction L with
  | nil => rfl
  | cons B L ih => rw [List.flatten_cons, List.map_cons, List.flatten_cons, bcc_append, ih]

theorem Ex.cc_bind (f : S → Ex T) (e : Ex S) : (e.bind f).cc = e.cc.bind fun s => (f s).cc := by
  induction e with
  | src s => rfl
  | zero => rfl
  | cj e ih => simp only [Ex.bind, Ex.cc, ih]
  | neg e ih => simp only [Ex.bind, Ex.cc, ih]
  | add a b iha ihb => simp only [Ex.bind, Ex.cc, iha, ihb]
  | sub a b iha ihb => simp only [Ex.bind, Ex.cc, iha, ihb]
  | smul c e ih => simp only [Ex.bind, Ex.cc, ih]
  | sdiv e c ih => simp only [Ex.bind, Ex.cc, ih]

theorem getD_bcc (B : Block S) (k : String) :
    Dict.getD (ν := Ex S) (bcc B) k Ex.zero = (Dict.getD (ν := Ex S) B k Ex.zero).cc := by
  have : bcc B = Dict.mapVals (ν := Ex S) Ex.cc B := rfl
  rw [this, Dict.getD, Dict.find_mapVals, Dict.getD]
  cases Dict.find (ν := Ex S) B k <;> rfl

theorem bcc_comp (A : Block S) (B : Block String) : bcc (comp A B) = comp (bcc A) (bcc B) := by
  simp only [bcc, comp, List.map_map, Function.comp_def, Ex.cc_bind]
  refine List.map_congr_left fun p _ => ?_
  refine congrArg (fun x => (p.1, x)) ?_
  congr 1
  funext k
  exact (getD_bcc A k).symm

theorem bcc_scaleBy (c : ℂ) (B : Block S) : bcc (scaleBy c B) = scaleBy (K c) (bcc B) := by
  simp only [bcc, scaleBy, List.map_map]; rfl

theorem bcc_divideBy (c : ℂ) (B : Block S) : bcc (divideBy c B) = divideBy (K c) (bcc B) := by
  simp only [bcc, divideBy, List.map_map]; rfl

theorem bcc_ofPairs (B : Block S) : bcc (Dict.ofPairs (ν := Ex S) B) = Dict.ofPairs (ν := Ex S) (bcc B) :=
  (ofPairs_mapVals (ν := Ex S) Ex.cc B).symm

theorem cc_src (s : S) : (Ex.src s).cc = .src s := rfl
theorem cc_zero : (Ex.zero : Ex S).cc = .zero := rfl
theorem cc_cj (e : Ex S) : (Ex.cj e).cc = .cj e.cc := rfl
theorem cc_neg (e : Ex S) : (-e).cc = -e.cc := rfl
theorem cc_add (a b : Ex S) : (a + b).cc = a.cc + b.cc := rfl
theorem cc_sub (a b : Ex S) : (a - b).cc = a.cc - b.cc := rfl
theorem cc_mul (c : ℂ) (e : Ex S) : (c * e).cc = K c * e.cc := rfl
theorem cc_div (e : Ex S) (c : ℂ) : (e / c).cc = e.cc / K c := rfl

/-! ### Tables with real coefficients -/

macro "real_table" t:ident : tactic =>
  `(tactic| simp only [bcc, $t:ident, List.map_cons, List.map_nil, cc_src, cc_zero, cc_cj, cc_neg, cc_add, cc_sub, cc_mul, cc_div, Nc,
      Complex.conj_ofReal, map_ofNat, map_div₀, map_one, map_mul, map_neg, map_pow, map_add, map_sub])

theorem bcc_jmsBernIDown (qq : String) (i j : List (Fin 3)) : bcc (jmsBernIDown qq i j) = jmsBernIDown qq i j := by
  real_table jmsBernIDown
theorem bcc_jmsBernIUp (qq : String) : bcc (jmsBernIUp qq) = jmsBernIUp qq := by real_table jmsBernIUp
theorem bcc_bernFlavioITable (a b : String) : bcc (bernFlavioITable a b) = bernFlavioITable a b := by real_table bernFlavioITable
theorem bcc_flavioBernITable (a b : String) : bcc (flavioBernITable a b) = flavioBernITable a b := by real_table flavioBernITable
theorem bcc_bernFormFlavorITable (a b : String) : bcc (bernFormFlavorITable a b) = bernFormFlavorITable a b := by
  real_table bernFormFlavorITable
theorem bcc_jmsBernIITable (a : String) (i j k l : Fin 3) : bcc (jmsBernIITable a i j k l) = jmsBernIITable a i j k l := by
  real_table jmsBernIITable
theorem bcc_bernFlavioIITable (a b : String) : bcc (bernFlavioIITable a b) = bernFlavioIITable a b := by real_table bernFlavioIITable
theorem bcc_flavioBernIITable (a b : String) : bcc (flavioBernIITable a b) = flavioBernIITable a b := by real_table flavioBernIITable
theorem bcc_bernEosIITable (a b : String) : bcc (bernEosIITable a b) = bernEosIITable a b := by real_table bernEosIITable
theorem bcc_fierzDDUU (a : String) (i j k l : Fin 3) : bcc (fierzDDUU a i j k l) = fierzDDUU a i j k l := by real_table fierzDDUU
theorem bcc_fierzDDDD (a : String) (i j k l : Fin 3) : bcc (fierzDDDD a i j k l) = fierzDDDD a i j k l := by real_table fierzDDDD
theorem bcc_fierzBern24 (a : String) : bcc (fierzBern24 a) = fierzBern24 a := by real_table fierzBern24
theorem bcc_fierzBern22 (a : String) : bcc (fierzBern22 a) = fierzBern22 a := by real_table fierzBern22
theorem bcc_fierzBernGen (a : String) : bcc (fierzBernGen a) = fierzBernGen a := by real_table fierzBernGen
theorem bcc_fierzEosVTable : bcc fierzEosVTable = fierzEosVTable := by real_table fierzEosVTable
theorem bcc_jmsFierzLepTable (a : String) (i j k l : Fin 3) : bcc (jmsFierzLepTable a i j k l) = jmsFierzLepTable a i j k l := by
  real_table jmsFierzLepTable
theorem bcc_fierzBernLepTable (a : String) : bcc (fierzBernLepTable a) = fierzBernLepTable a := by real_table fierzBernLepTable
theorem bcc_bernFierzLepTable (a : String) : bcc (bernFierzLepTable a) = bernFierzLepTable a := by real_table bernFierzLepTable
theorem bcc_fierzFlavioNuTable (a b : String) (x : ℝ) : bcc (fierzFlavioNuTable a b x) = fierzFlavioNuTable a b x := by
  real_table fierzFlavioNuTable
theorem bcc_fierzFlavioLepTable (a b : String) (x y : ℝ) : bcc (fierzFlavioLepTable a b x y) = fierzFlavioLepTable a b x y := by
  real_table fierzFlavioLepTable
theorem bcc_flavioFierzLepTable (a b c : String) (x y z : ℝ) :
    bcc (flavioFierzLepTable a b c x y z) = flavioFierzLepTable a b c x y z := by
  real_table flavioFierzLepTable
theorem bcc_fierzEosLepTable (a b : String) (x : ℝ) : bcc (fierzEosLepTable a b x) = fierzEosLepTable a b x := by
  real_table fierzEosLepTable
theorem bcc_jmsFormFlavorLepTable (a : String) (i j : Fin 3) : bcc (jmsFormFlavorLepTable a i j) = jmsFormFlavorLepTable a i j := by
  real_table jmsFormFlavorLepTable
theorem bcc_jmsFierzChromTable (a : String) (i j : Fin 3) : bcc (jmsFierzChromTable a i j) = jmsFierzChromTable a i j := by
  real_table jmsFierzChromTable
theorem bcc_fierzBernChromTable (a : String) (x y : ℝ) : bcc (fierzBernChromTable a x y) = fierzBernChromTable a x y := by
  real_table fierzBernChromTable
theorem bcc_bernFierzChromTable (a : String) (x y : ℝ) : bcc (bernFierzChromTable a x y) = bernFierzChromTable a x y := by
  real_table bernFierzChromTable
theorem bcc_fierzFlavioChromTable (a b : String) (x y : ℝ) : bcc (fierzFlavioChromTable a b x y) = fierzFlavioChromTable a b x y := by
  real_table fierzFlavioChromTable
theorem bcc_flavioFierzChromTable (a b : String) (x y : ℝ) : bcc (flavioFierzChromTable a b x y) = flavioFierzChromTable a b x y := by
  real_table flavioFierzChromTable
theorem bcc_fierzEosChromTable (a : String) (x y z u w : ℝ) : bcc (fierzEosChromTable a x y z u w) = fierzEosChromTable a x y z u w := by
  real_table fierzEosChromTable
theorem bcc_formFlavorDownTable (a : String) (i j : Fin 3) (x y : ℝ) : bcc (formFlavorDownTable a i j x y) = formFlavorDownTable a i j x y := by
  real_table formFlavorDownTable
theorem bcc_formFlavorLepTable (a : String) (i j : Fin 3) (x y : ℝ) : bcc (formFlavorLepTable a i j x y) = formFlavorLepTable a i j x y := by
  real_table formFlavorLepTable
theorem bcc_formFlavorUpTable (a : String) (i j : Fin 3) (x y : ℝ) : bcc (formFlavorUpTable a i j x y) = formFlavorUpTable a i j x y := by
  real_table formFlavorUpTable

/-! ### Tables of the translators -/

/-- Parameters with conjugate CKM matrices. -/
structure Flip (P P' : PEnv) : Prop where
  V : ∀ i j, P'.V i j = K (P.V i j)
  GF : P'.p.GF = P.p.GF
  alpha_e : P'.p.alpha_e = P.p.alpha_e
  alpha_s : P'.p.alpha_s = P.p.alpha_s
  m_b : P'.p.m_b = P.p.m_b
  m_s : P'.p.m_s = P.p.m_s

section

variable (hf : Flip P P') (hP : Admissible P)

include hf

theorem Flip.ev : ev P' = ev P := by unfold Verif.ev; rw [hf.alpha_e]
theorem Flip.gv : gv P' = gv P := by unfold Verif.gv; rw [hf.alpha_s]
theorem Flip.k8 : k8v P' = k8v P := by unfold k8v; rw [hf.ev]
theorem Flip.k16 : k16v P' = k16v P := by unfold k16v; rw [hf.ev]
theorem Flip.kS : kSv P' = kSv P := by unfold kSv; rw [hf.k16, hf.m_b]
theorem Flip.kg : kgv P' = kgv P := by unfold kgv; rw [hf.ev, hf.gv, hf.m_b]
theorem Flip.kgs : kgsv P' = kgsv P := by unfold kgsv; rw [hf.gv, hf.m_b]
theorem Flip.k7 : k7v P' = k7v P := by unfold k7v; rw [hf.ev, hf.m_b]
theorem Flip.k7g : k7gv P' = k7gv P := by unfold k7gv; rw [hf.gv, hf.m_b]
theorem Flip.prefBern : prefBernv P' = prefBernv P := by unfold prefBernv; rw [hf.GF]

theorem Flip.prefII (u d : Fin 3) : prefIIv P' u d = K (prefIIv P u d) := by
  unfold prefIIv
  rw [hf.GF, hf.V, map_div₀, map_div₀, Complex.conj_ofReal, map_ofNat]

theorem Flip.xi (dd : String) : xiv P' dd = K (xiv P dd) := by
  unfold xiv
  split_ifs <;> rw [hf.V, hf.V, map_mul]

theorem Flip.prefXi (dd : String) : prefXiv P' (xiv P' dd) = K (prefXiv P (xiv P dd)) := by
  unfold prefXiv
  rw [hf.GF, hf.xi, map_div₀, map_div₀, Complex.conj_ofReal, map_ofNat]

theorem Flip.prefEos : prefEosv P' = K (prefEosv P) := by
  unfold prefEosv
  rw [hf.GF, hf.V, hf.V, map_div₀, map_div₀, map_div₀, Complex.conj_ofReal, map_ofNat]

include hP in
theorem Flip.admissible : Admissible P' where
  GF := by rw [hf.GF]; exact hP.GF
  alpha_e := by rw [hf.alpha_e]; exact hP.alpha_e
  alpha_s := by rw [hf.alpha_s]; exact hP.alpha_s
  m_b := by rw [hf.m_b]; exact hP.m_b
  V := fun i j => by rw [hf.V]; exact (map_ne_zero _).2 (hP.V i j)

end

theorem bcc_jmsBernI {qq : String} (hq : qq ∈ ["sb", "db", "ds"]) : bcc (okOr (jmsBernI qq)) = okOr (jmsBernI qq) := by
  obtain ⟨i, j, h⟩ := jmsBernI_eq hq
  rw [h, okOr_ok, bcc_jmsBernIDown]

theorem bcc_bernFlavioI {qq : String} (hq : qq ∈ ["sb", "db", "ds"]) : bcc (okOr (bernFlavioI qq)) = okOr (bernFlavioI qq) := by
  rw [bernFlavioI_eq hq, okOr_ok, bcc_bernFlavioITable]

theorem bcc_flavioBernI (qq : String) : bcc (okOr (flavioBernI qq)) = okOr (flavioBernI qq) := by
  unfold flavioBernI
  split_ifs
  · rw [okOr_ok, bcc_flavioBernITable]
  · rfl

theorem bcc_jmsBernII {x : String} (hx : x ∈ namesII) : bcc (okOr (jmsBernII x)) = okOr (jmsBernII x) := by
  obtain ⟨u, d, l, lp, -, h, -⟩ := jmsBernII_eq hx
  rw [h, okOr_ok, bcc_jmsBernIITable]

theorem bcc_jmsFierzV {x : String} (hx : x ∈ namesV) : bcc (okOr (jmsFierzV x)) = okOr (jmsFierzV x) := by
  rcases namesV_split x hx with hx | hx
  · obtain ⟨f1, f2, f3, f4, -, -, h⟩ := jmsFierzV_u hx
    rw [h, okOr_ok, bcc_fierzDDUU]
  · obtain ⟨f1, f2, f3, f4, h⟩ := jmsFierzV_d hx
    rw [h, okOr_ok, bcc_fierzDDDD]

theorem bcc_fierzBernV {x : String} (hx : x ∈ namesV) : bcc (okOr (fierzBernV x)) = okOr (fierzBernV x) := by
  rcases fierzBernV_eq x hx with h | h | h
  · rw [h, okOr_ok, bcc_fierzBern24]
  · rw [h, okOr_ok, bcc_fierzBern22]
  · rw [h, okOr_ok, bcc_fierzBernGen]

theorem bcc_jmsFierzLep {qq x : String} (hq : qq ∈ ["sb", "db", "ds"]) (hx : x ∈ namesLep qq) :
    bcc (okOr (jmsFierzLep x)) = okOr (jmsFierzLep x) := by
  obtain ⟨s, b, l, lp, h⟩ := jmsFierzLep_eq hq hx
  rw [h, okOr_ok, bcc_jmsFierzLepTable]

theorem bcc_fierzBernLep (x : String) : bcc (okOr (fierzBernLep x)) = okOr (fierzBernLep x) := bcc_fierzBernLepTable _

theorem bcc_bernFierzLep (x : String) : bcc (okOr (bernFierzLep x)) = okOr (bernFierzLep x) := bcc_bernFierzLepTable _

theorem bcc_jmsFierzChrom {qq : String} (hq : qq ∈ ["sb", "db", "ds"]) :
    bcc (okOr (jmsFierzChrom qq)) = okOr (jmsFierzChrom qq) := by
  obtain ⟨s, b, h⟩ := jmsFierzChrom_eq hq
  rw [h, okOr_ok, bcc_jmsFierzChromTable]

section

variable (hf : Flip P P') (hP : Admissible P)

include hf hP

theorem bcc_bernFlavioII {x : String} (hx : x ∈ namesII) : bcc (okOr (bernFlavioII P x)) = okOr (bernFlavioII P' x) := by
  obtain ⟨u, d, l, lp, -, -, h⟩ := jmsBernII_eq hx
  rw [bernFlavioII_eq hP h, bernFlavioII_eq (hf.admissible hP) h, okOr_ok, okOr_ok, bcc_scaleBy, bcc_bernFlavioIITable, hf.prefII]

theorem bcc_flavioBernII {x : String} (hx : x ∈ namesII) : bcc (okOr (flavioBernII P x)) = okOr (flavioBernII P' x) := by
  obtain ⟨u, d, l, lp, -, -, h⟩ := jmsBernII_eq hx
  rw [flavioBernII_eq hP h, flavioBernII_eq (hf.admissible hP) h, okOr_ok, okOr_ok, bcc_divideBy, bcc_flavioBernIITable, hf.prefII]

theorem bcc_bernEosII {x : String} (hx : x ∈ namesII) : bcc (okOr (bernEosII P x)) = okOr (bernEosII P' x) := by
  obtain ⟨u, d, l, lp, -, -, h⟩ := jmsBernII_eq hx
  rw [bernEosII_eq hP h, bernEosII_eq (hf.admissible hP) h, okOr_ok, okOr_ok, bcc_scaleBy, bcc_bernEosIITable, hf.prefII]

theorem bcc_fierzFlavioLep {qq x : String} (hq : qq ∈ ["sb", "db", "ds"]) (hx : x ∈ namesLep qq) (b : Bool) :
    bcc (okOr (fierzFlavioLep P x b)) = okOr (fierzFlavioLep P' x b) := by
  obtain ⟨h1, h2⟩ := fierzFlavioLep_eq hP hq hx
  obtain ⟨h1', h2'⟩ := fierzFlavioLep_eq (hf.admissible hP) hq hx
  cases b with
  | true =>
    rw [h1, h1', okOr_ok, okOr_ok, bcc_scaleBy, bcc_append, bcc_fierzFlavioNuTable, bcc_fierzFlavioLepTable, hf.prefXi, hf.k8, hf.k16, hf.kS]
  | false => rw [h2, h2', okOr_ok, okOr_ok, bcc_scaleBy, bcc_fierzFlavioNuTable, hf.prefXi, hf.k8]

theorem bcc_flavioFierzLep {qq x : String} (hq : qq ∈ ["sb", "db", "ds"]) (hx : x ∈ namesLep qq) :
    bcc (okOr (flavioFierzLep P x)) = okOr (flavioFierzLep P' x) := by
  rw [flavioFierzLep_eq hP hq hx, flavioFierzLep_eq (hf.admissible hP) hq hx, okOr_ok, okOr_ok, bcc_divideBy, bcc_flavioFierzLepTable,
    hf.prefXi, hf.k8, hf.k16, hf.kS]

theorem bcc_fierzBernChrom (qq : String) : bcc (okOr (fierzBernChrom P qq)) = okOr (fierzBernChrom P' qq) := by
  rw [fierzBernChrom_eq hP, fierzBernChrom_eq (hf.admissible hP), okOr_ok, okOr_ok, bcc_fierzBernChromTable, hf.kg, hf.kgs]

theorem bcc_bernFierzChrom (qq : String) : bcc (okOr (bernFierzChrom P qq)) = okOr (bernFierzChrom P' qq) := by
  rw [bernFierzChrom_eq hP, bernFierzChrom_eq (hf.admissible hP), okOr_ok, okOr_ok, bcc_bernFierzChromTable, hf.kg, hf.kgs]

theorem bcc_fierzFlavioChrom {qq : String} (hq : qq ∈ ["sb", "db", "ds"]) :
    bcc (okOr (fierzFlavioChrom P qq)) = okOr (fierzFlavioChrom P' qq) := by
  rw [fierzFlavioChrom_eq hP hq, fierzFlavioChrom_eq (hf.admissible hP) hq, okOr_ok, okOr_ok, bcc_scaleBy, bcc_fierzFlavioChromTable,
    hf.prefXi, hf.k7, hf.k7g]

theorem bcc_flavioFierzChrom {qq : String} (hq : qq ∈ ["sb", "db", "ds"]) :
    bcc (okOr (flavioFierzChrom P qq)) = okOr (flavioFierzChrom P' qq) := by
  rw [flavioFierzChrom_eq hP hq, flavioFierzChrom_eq (hf.admissible hP) hq, okOr_ok, okOr_ok, bcc_divideBy, bcc_flavioFierzChromTable,
    hf.prefXi, hf.k7, hf.k7g]

theorem bcc_fierzEosLep (x : String) : bcc (okOr (fierzEosLep P x)) = okOr (fierzEosLep P' x) := by
  rw [fierzEosLep_eq hP, fierzEosLep_eq (hf.admissible hP), okOr_ok, okOr_ok, bcc_scaleBy, bcc_fierzEosLepTable, hf.prefEos, hf.k16]

theorem bcc_fierzEosV : bcc (okOr (fierzEosV P)) = okOr (fierzEosV P') := by
  rw [fierzEosV_eq hP, fierzEosV_eq (hf.admissible hP), okOr_ok, okOr_ok, bcc_scaleBy, bcc_fierzEosVTable, hf.prefEos]

omit hf in
theorem fierzEosChrom_val (hm : P.p.m_b ^ 2 ≠ P.p.m_s ^ 2) (dd : String) :
    fierzEosChrom P dd = .ok (scaleBy (prefEosv P) (fierzEosChromTable dd (16 * Real.pi ^ 2 * P.p.m_b / ev P)
      (16 * Real.pi ^ 2 * P.p.m_s / ev P) (16 * Real.pi ^ 2 * P.p.m_b / gv P) (16 * Real.pi ^ 2 * P.p.m_s / gv P)
      (P.p.m_b ^ 2 - P.p.m_s ^ 2))) := by
  have : ((P.p.m_b ^ 2 - P.p.m_s ^ 2 : ℝ) : ℂ) ≠ 0 := by exact_mod_cast sub_ne_zero.2 hm
  unfold fierzEosChrom
  rw [e_ok hP, except_ok_bind, gs_ok hP, except_ok_bind, divE_ok (ev_ne hP), except_ok_bind, divE_ok (ev_ne hP),
    except_ok_bind, divE_ok (gv_ne hP), except_ok_bind, divE_ok (gv_ne hP), except_ok_bind]
  dsimp only
  rw [divC_ok this, except_ok_bind, prefEos_ok hP, except_ok_bind]; rfl

theorem bcc_fierzEosChrom (hm : P.p.m_b ^ 2 ≠ P.p.m_s ^ 2) (dd : String) :
    bcc (okOr (fierzEosChrom P dd)) = okOr (fierzEosChrom P' dd) := by
  rw [fierzEosChrom_val hP hm, fierzEosChrom_val (hf.admissible hP) (by rw [hf.m_b, hf.m_s]; exact hm), okOr_ok, okOr_ok, bcc_scaleBy,
    bcc_fierzEosChromTable, hf.prefEos, hf.ev, hf.gv, hf.m_b, hf.m_s]

theorem bcc_formFlavorChrom : ∀ x ∈ ["sb", "db", "uu", "dd", "mt", "em", "et"],
    bcc (okOr (formFlavorChrom P x)) = okOr (formFlavorChrom P' x) := by
  obtain ⟨h1, h2, h3, h4, h5, h6, h7⟩ := formFlavorChrom_eq hP
  obtain ⟨g1, g2, g3, g4, g5, g6, g7⟩ := formFlavorChrom_eq (hf.admissible hP)
  simp only [List.forall_mem_cons, List.not_mem_nil, IsEmpty.forall_iff, implies_true, and_true, h1, h2, h3, h4, h5, h6, h7,
    g1, g2, g3, g4, g5, g6, g7, okOr_ok, bcc_formFlavorDownTable, bcc_formFlavorUpTable, bcc_formFlavorLepTable, hf.ev, hf.gv]

/-! ### The translators -/

theorem bcc_blkJmsFlavio : bcc (blkJmsFlavio P).flatten = (blkJmsFlavio P').flatten := by
  rw [bcc_flatten]
  congr 1
  unfold blkJmsFlavio
  simp only [List.map_append, List.map_map, List.map_flatMap, Function.comp_def, List.map_cons, List.map_nil, bcc_comp]
  refine congrArg₂ _ (congrArg₂ _ (congrArg₂ _ ?_ ?_) ?_) ?_
  · rw [bcc_jmsBernI (by simp), bcc_jmsBernI (by simp), bcc_jmsBernI (by simp), bcc_bernFlavioI (by simp), bcc_bernFlavioI (by simp),
      bcc_bernFlavioI (by simp)]
  · refine List.map_congr_left fun x hx => ?_
    rw [bcc_jmsBernII hx, bcc_bernFlavioII hf hP hx]
  · refine List.flatMap_congr fun l hl => ?_
    have h := fun qq => mem_namesLep qq hl
    rw [bcc_jmsFierzLep (by simp) (h "sb"), bcc_jmsFierzLep (by simp) (h "db"), bcc_jmsFierzLep (by simp) (h "ds"),
      bcc_fierzFlavioLep hf hP (by simp) (h "sb"), bcc_fierzFlavioLep hf hP (by simp) (h "db"),
      bcc_fierzFlavioLep hf hP (by simp) (h "ds")]
  · rw [bcc_jmsFierzChrom (by simp), bcc_jmsFierzChrom (by simp), bcc_fierzFlavioChrom hf hP (by simp),
      bcc_fierzFlavioChrom hf hP (by simp)]

theorem bcc_blkJmsBern : bcc (blkJmsBern P).flatten = (blkJmsBern P').flatten := by
  rw [bcc_flatten]
  congr 1
  unfold blkJmsBern
  simp only [List.map_append, List.map_map, List.map_flatMap, Function.comp_def, List.map_cons, List.map_nil, bcc_comp]
  refine congrArg₂ _ (congrArg₂ _ (congrArg₂ _ (congrArg₂ _ ?_ ?_) ?_) ?_) ?_
  · exact congrArg₂ _ (bcc_jmsBernI (by simp)) (congrArg₂ _ (bcc_jmsBernI (by simp)) (congrArg₂ _ (bcc_jmsBernI (by simp)) rfl))
  · exact List.map_congr_left fun x hx => bcc_jmsBernII hx
  · refine List.map_congr_left fun x hx => ?_
    rw [bcc_jmsFierzV hx, bcc_fierzBernV hx]
  · refine List.flatMap_congr fun l hl => ?_
    have h := fun qq => mem_namesLep qq hl
    rw [bcc_jmsFierzLep (by simp) (h "sb"), bcc_jmsFierzLep (by simp) (h "db"), bcc_jmsFierzLep (by simp) (h "ds"),
      bcc_fierzBernLep, bcc_fierzBernLep, bcc_fierzBernLep]
  · rw [bcc_jmsFierzChrom (by simp), bcc_jmsFierzChrom (by simp), bcc_jmsFierzChrom (by simp), bcc_fierzBernChrom hf hP,
      bcc_fierzBernChrom hf hP, bcc_fierzBernChrom hf hP]

theorem bcc_blkBernFlavio : bcc (blkBernFlavio P).flatten = (blkBernFlavio P').flatten := by
  rw [bcc_flatten]
  congr 1
  unfold blkBernFlavio
  simp only [List.map_append, List.map_map, List.map_flatMap, Function.comp_def, List.map_cons, List.map_nil, bcc_comp]
  refine congrArg₂ _ (congrArg₂ _ (congrArg₂ _ ?_ ?_) ?_) ?_
  · exact congrArg₂ _ (bcc_bernFlavioI (by simp)) (congrArg₂ _ (bcc_bernFlavioI (by simp)) (congrArg₂ _ (bcc_bernFlavioI (by simp)) rfl))
  · exact List.map_congr_left fun x hx => bcc_bernFlavioII hf hP hx
  · refine List.flatMap_congr fun l hl => ?_
    have h := fun qq => mem_namesLep qq hl
    rw [bcc_bernFierzLep, bcc_bernFierzLep, bcc_bernFierzLep,
      bcc_fierzFlavioLep hf hP (by simp) (h "sb"), bcc_fierzFlavioLep hf hP (by simp) (h "db"),
      bcc_fierzFlavioLep hf hP (by simp) (h "ds")]
  · rw [bcc_bernFierzChrom hf hP, bcc_bernFierzChrom hf hP, bcc_fierzFlavioChrom hf hP (by simp), bcc_fierzFlavioChrom hf hP (by simp)]

theorem bcc_blkFlavioBern : bcc (blkFlavioBern P).flatten = (blkFlavioBern P').flatten := by
  rw [bcc_flatten]
  congr 1
  unfold blkFlavioBern
  simp only [List.map_append, List.map_map, List.map_flatMap, Function.comp_def, List.map_cons, List.map_nil, bcc_comp]
  refine congrArg₂ _ (congrArg₂ _ (congrArg₂ _ ?_ ?_) ?_) ?_
  · exact congrArg₂ _ (bcc_flavioBernI _) (congrArg₂ _ (bcc_flavioBernI _) (congrArg₂ _ (bcc_flavioBernI _) rfl))
  · exact List.map_congr_left fun x hx => bcc_flavioBernII hf hP hx
  · refine List.flatMap_congr fun l hl => ?_
    have h := fun qq => mem_namesLep qq hl
    rw [bcc_flavioFierzLep hf hP (by simp) (h "sb"), bcc_flavioFierzLep hf hP (by simp) (h "db"), bcc_fierzBernLep, bcc_fierzBernLep]
  · rw [bcc_flavioFierzChrom hf hP (by simp), bcc_flavioFierzChrom hf hP (by simp), bcc_fierzBernChrom hf hP, bcc_fierzBernChrom hf hP]

theorem bcc_blkEosV : bcc (blkEosV P) = blkEosV P' := by
  unfold blkEosV
  have h := bcc_fierzEosV hf hP
  rw [← h]
  simp only [bcc, List.map_map, Function.comp_def, Ex.cc_bind]
  refine List.map_congr_left fun p _ => ?_
  refine congrArg (fun x => (p.1, x)) ?_
  congr 1
  funext s
  rw [← getD_bcc]
  congr 1
  have hv : ∀ x ∈ ["sbuu", "sbdd", "sbcc", "sbss", "sbbb"], bcc (okOr (jmsFierzV x)) = okOr (jmsFierzV x) :=
    fun x hx => bcc_jmsFierzV (mem_namesV x hx)
  have hm : ∀ q ∈ eosDicts, bcc q.2 = q.2 := by
    simp only [eosDicts, List.forall_mem_cons, List.not_mem_nil, IsEmpty.forall_iff, implies_true, and_true]
    exact ⟨hv _ (by simp), hv _ (by simp), hv _ (by simp), hv _ (by simp), hv _ (by simp)⟩
  unfold Dict.getD
  cases hs : Dict.find (ν := Block JSrc) eosDicts s.1 with
  | none => rfl
  | some B => exact hm (s.1, B) (Dict.mem_of_find hs)

theorem bcc_blkEos (hm : P.p.m_b ^ 2 ≠ P.p.m_s ^ 2) : bcc (blkEos P).flatten = (blkEos P').flatten := by
  have hII : ∀ l ∈ ["e", "mu"], nameLep "ub" (l, l) ∈ namesII := by decide +kernel
  have hlep : ∀ x ∈ ["sbl_enu_e", "sbl_munu_mu"], x ∈ namesLep "sb" := by decide +kernel
  rw [bcc_flatten]
  congr 1
  unfold blkEos
  rw [List.map_append]
  refine congrArg₂ _ ?_ ?_
  · rw [List.map_map]
    refine List.map_congr_left fun l hl => ?_
    simp only [Function.comp_def]
    rw [bcc_comp, bcc_jmsBernII (hII l hl), bcc_bernEosII hf hP (hII l hl)]
  · simp only [List.map_cons, List.map_nil, bcc_comp]
    rw [bcc_blkEosV hf hP, bcc_jmsFierzLep (by simp) (hlep _ (by simp)), bcc_jmsFierzLep (qq := "sb") (by simp) (hlep "sbl_munu_mu" (by simp)),
      bcc_fierzEosLep hf hP, bcc_fierzEosLep hf hP, bcc_jmsFierzChrom (by simp), bcc_fierzEosChrom hf hP hm]

theorem bcc_blkFormFlavor : bcc (blkFormFlavor P).flatten = (blkFormFlavor P').flatten := by
  rw [bcc_flatten]
  congr 1
  unfold blkFormFlavor
  rw [List.map_append, List.map_append]
  refine congrArg₂ _ (congrArg₂ _ ?_ ?_) ?_
  · rw [List.map_map]
    refine List.map_congr_left fun qq hq => ?_
    simp only [Function.comp_def]
    have h2 : bernFormFlavorI qq = .ok (bernFormFlavorITable qq (pyRev qq)) := if_pos hq
    rw [bcc_comp, h2, okOr_ok, bcc_bernFormFlavorITable]
    congr 1
    by_cases hq3 : qq ∈ ["sb", "db", "ds"]
    · exact bcc_jmsBernI hq3
    · have hu : qq = "uc" := by
        simp only [List.mem_cons, List.not_mem_nil, or_false] at hq hq3; tauto
      subst hu
      exact bcc_jmsBernIUp "uc"
  · simp only [List.map_cons, List.map_nil]
    rw [jmsFormFlavorLep_bs, jmsFormFlavorLep_bd, okOr_ok, okOr_ok, bcc_jmsFormFlavorLepTable, bcc_jmsFormFlavorLepTable]
  · rw [List.map_map]
    exact List.map_congr_left fun x hx => bcc_formFlavorChrom hf hP x hx

end

/-! ### Input -/

theorem getD_conjValues (C : Dict String ℂ) (k : String) : Dict.getD (conjValues C) k 0 = K (Dict.getD C k 0) := by
  unfold Dict.getD
  rw [conjValues_eq, Dict.find_mapVals]
  cases Dict.find C k <;> simp

theorem sval_cc (C : Dict String ℂ) : sval (conjValues C) = fun k => K (sval C k) := funext (getD_conjValues C)

theorem listedOpt_cc (L : List String) (C : Dict String ℂ) (k : String) (i : List (Fin 3)) :
    listedOpt L (conjValues C) k i = (listedOpt L C k i).map K := by
  unfold listedOpt
  split_ifs
  · rw [getD_conjValues]; rfl
  · rfl

theorem fillOpt_cc (k : String) (f : List (Fin 3) → Option ℂ) (i : List (Fin 3)) :
    fillOpt k (fun j => (f j).map K) i = (fillOpt k f i).map K := by
  unfold fillOpt
  dsimp only
  generalize f i = a, f (permCurrent i) = b, f (permHerm i) = c, f (permCurrent (permHerm i)) = d
  split_ifs
  · cases a <;> cases c <;> rfl
  · cases a <;> cases b <;> rfl
  · cases a <;> cases b <;> cases c <;> cases d <;> rfl
  · rfl

theorem jval_cc (L : List String) (C : Dict String ℂ) : jval L (conjValues C) = fun s => K (jval L C s) := by
  funext s
  unfold jval
  rw [show listedOpt L (conjValues C) s.1 = fun j => (listedOpt L C s.1 j).map K from funext (listedOpt_cc L C s.1), fillOpt_cc]
  cases fillOpt s.1 (listedOpt L C s.1) s.2 <;> simp

/-! ### FlavorKit -/

theorem put_cc (d : Dict String ℂ) (k : String) (x : ℂ) : Dict.put (conjValues d) k (K x) = conjValues (Dict.put d k x) :=
  put_mapVals K d k x

/-- State of the loops. -/
noncomputable def fkState (s : Option ℝ × Dict String ℂ) : Option ℝ × Dict String ℂ := (s.1, conjValues s.2)

theorem fkToJmsStep_cc (p : WPar) (s : Option ℝ × Dict String ℂ) (kv : String × ℂ) :
    fkToJmsStep p (fkState s) (kv.1, K kv.2) = (fkToJmsStep p s kv).map fkState := by
  unfold fkToJmsStep
  cases Dict.find fkJms kv.1 with
  | some k' => exact congrArg Except.ok (congrArg (Prod.mk s.1) (put_cc s.2 k' kv.2))
  | none =>
    cases Dict.find fkJmsConj kv.1 with
    | some k' => exact congrArg Except.ok (congrArg (Prod.mk s.1) (put_cc s.2 k' (K kv.2)))
    | none =>
      simp only
      split_ifs
      · exact congrArg Except.ok (congrArg (Prod.mk s.1) (put_cc s.2 _ kv.2))
      · exact congrArg Except.ok (congrArg (Prod.mk s.1) (put_cc s.2 _ kv.2))
      · refine bind_map_same fun e => bind_map_same fun c => bind_map_same fun m => ?_
        refine congrArg Except.ok (congrArg (Prod.mk (some m)) ?_)
        rw [← put_cc, map_mul, Complex.conj_ofReal]; rfl
      · rfl

theorem jmsToFkStep_cc (p : WPar) (s : Option ℝ × Dict String ℂ) (kv : String × ℂ) :
    jmsToFkStep p (fkState s) (kv.1, K kv.2) = (jmsToFkStep p s kv).map fkState := by
  unfold jmsToFkStep
  cases Dict.find (revert fkJms) kv.1 with
  | some k' => exact congrArg Except.ok (congrArg (Prod.mk s.1) (put_cc s.2 k' kv.2))
  | none =>
    cases Dict.find (revert fkJmsConj) kv.1 with
    | some k' => exact congrArg Except.ok (congrArg (Prod.mk s.1) (put_cc s.2 k' (K kv.2)))
    | none =>
      simp only
      split_ifs
      · exact congrArg Except.ok (congrArg (Prod.mk s.1) (put_cc s.2 _ kv.2))
      · exact congrArg Except.ok (congrArg (Prod.mk s.1) (put_cc s.2 _ kv.2))
      · refine bind_map_same fun t => bind_map_same fun c0 => bind_map_same fun c1 => ?_
        split_ifs
        · rfl
        · refine bind_map_same fun e => bind_map_same fun x => bind_map_same fun m => bind_map_same fun y => ?_
          refine congrArg Except.ok (congrArg (Prod.mk (some m)) ?_)
          rw [← put_cc, map_mul, Complex.conj_ofReal]; rfl
      · rfl

/-! ### Parameters -/

/-- The sign of the phase changed. -/
def WPar.flip (p : WPar) : WPar := { p with gamma := -p.gamma }

theorem getParameters_cc (E : WEnv) {par par' : Option Par} (hf : FlipsPhase E.default par par') (scale : ℝ) (f : ℤ) :
    getParameters E scale par' f = (getParameters E scale par f).map WPar.flip := by
  unfold getParameters
  dsimp only
  rw [get_flip hf (k := "m_b") (by decide), get_flip hf (k := "alpha_s") (by decide), get_flip hf (k := "m_s") (by decide),
    get_flip hf (k := "m_W") (by decide), get_flip hf (k := "m_Z") (by decide), get_flip hf (k := "GF") (by decide),
    get_flip hf (k := "alpha_e") (by decide), get_flip hf (k := "Vus") (by decide), get_flip hf (k := "Vub") (by decide),
    get_flip hf (k := "Vcb") (by decide), get_flip_gamma hf, get_flip hf (k := "m_e") (by decide),
    get_flip hf (k := "m_mu") (by decide), get_flip hf (k := "m_tau") (by decide)]
  refine bind_map_same fun _ => bind_map_same fun _ => bind_map_same fun _ => bind_map_same fun _ => bind_map_same fun _ =>
    bind_map_same fun _ => bind_map_same fun _ => bind_map_same fun _ => bind_map_same fun _ => bind_map_same fun _ =>
    bind_map_same fun _ => bind_map_same fun _ => bind_map_same fun _ => bind_map_of fun _ => bind_map_same fun _ =>
    bind_map_same fun _ => bind_map_same fun _ => rfl

theorem penv_cc (E : WEnv) (hc : PhaseOnly E.ckm) {par par' : Option Par} (hf : FlipsPhase E.default par par') {scale : ℝ}
    (hp : penv E scale par = .ok P) : ∃ P', penv E scale par' = .ok P' ∧ Flip P P' := by
  unfold penv at hp ⊢
  rw [getParameters_cc E hf]
  cases h : getParameters E scale par with
  | error e => rw [h] at hp; cases hp
  | ok p =>
    rw [h] at hp
    injection hp with hp
    subst hp
    exact ⟨⟨E.ckm, p.flip⟩, rfl, fun i j => hc _ _ _ _ i j, rfl, rfl, rfl, rfl, rfl⟩

end Verif
