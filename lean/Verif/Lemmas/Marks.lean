import Verif.Lemmas.WetClosed
import Verif.Spec.Flavour
import Mathlib.Algebra.BigOperators.Group.Finset.Basic

/-! Which entries the tables of the WET translators read, with or without complex conjugation. -/

set_option autoImplicit false

namespace Verif

variable {S T : Type} {P : PEnv}

/-- The entries read by an expression; the flag tells whether the entry is conjugated. -/
def Ex.marks : Ex S → List (Bool × S)
  | .src s => [(false, s)]
  | .zero => []
  | .cj e => e.marks.map fun m => (!m.1, m.2)
  | .neg e => e.marks
  | .add a b => a.marks ++ b.marks
  | .sub a b => a.marks ++ b.marks
  | .smul _ e => e.marks
  | .sdiv e _ => e.marks

/-- If the entries are multiplied by `z` (or by its conjugate, if the entry is conjugated), so is the value. -/
theorem Ex.val_marks {v v' : S → ℂ} (e : Ex S) : ∀ z : ℂ, (∀ m ∈ e.marks, v' m.2 = conjIf m.1 z * v m.2) → e.val v' = z * e.val v := by
  induction e with
  | src s => intro z h; simpa [conjIf] using h (false, s) (by simp [Ex.marks])
  | zero => intro z _; simp [Ex.val]
  | cj e ih =>
    intro z h
    have := ih (starRingEnd ℂ z) fun m hm => by
      rw [h (!m.1, m.2) (List.mem_map.2 ⟨m, hm, rfl⟩)]
      cases m.1 <;> simp [conjIf]
    simp [Ex.val, this]
  | neg e ih => intro z h; simp only [Ex.val, ih z h]; ring
  | add a b iha ihb =>
    intro z h
    simp only [Ex.val, iha z fun m hm => h m (List.mem_append_left _ hm), ihb z fun m hm => h m (List.mem_append_right _ hm)]; ring
  | sub a b iha ihb =>
    intro z h
    simp only [Ex.val, iha z fun m hm => h m (List.mem_append_left _ hm), ihb z fun m hm => h m (List.mem_append_right _ hm)]; ring
  | smul c e ih => intro z h; simp only [Ex.val, ih z h]; ring
  | sdiv e c ih => intro z h; simp only [Ex.val, ih z h]; ring

/-- Entries read after substitution. -/
def markSubst (f : S → List (Bool × T)) (l : List (Bool × S)) : List (Bool × T) :=
  l.flatMap fun m => (f m.2).map fun n => (m.1 ^^ n.1, n.2)

theorem Ex.marks_bind (f : S → Ex T) (e : Ex S) : (e.bind f).marks = markSubst (fun s => (f s).marks) e.marks := by
  unfold markSubst
  induction e with
  | src s => simp [Ex.bind, Ex.marks]
  | zero => rfl
  | cj e ih =>
    simp only [Ex.bind, Ex.marks, ih, List.map_flatMap, List.flatMap_map, List.map_map]
    refine List.flatMap_congr fun m _ => List.map_congr_left fun n _ => ?_
    cases m.1 <;> simp
  | neg e ih => exact ih
  | add a b iha ihb => simp only [Ex.bind, Ex.marks, iha, ihb, List.flatMap_append]
  | sub a b iha ihb => simp only [Ex.bind, Ex.marks, iha, ihb, List.flatMap_append]
  | smul c e ih => exact ih
  | sdiv e c ih => exact ih

/-- Entries read for every key. -/
abbrev Marks (S : Type) := Dict String (List (Bool × S))

/-- Entries read by a table. -/
def bmarks (b : Block S) : Marks S := b.map fun p => (p.1, p.2.marks)

/-- Entries read by the table `b'` on the dictionary given by the table `b`. -/
def compM (m : Marks S) (m' : Marks String) : Marks S :=
  m'.map fun p => (p.1, markSubst (fun k => Dict.getD m k []) p.2)

theorem getD_bmarks (b : Block S) (k : String) : Dict.getD (bmarks b) k [] = (Dict.getD (ν := Ex S) b k Ex.zero).marks := by
  have : bmarks b = Dict.mapVals (fun e : Ex S => e.marks) b := rfl
  rw [this, Dict.getD, Dict.find_mapVals, Dict.getD]
  cases Dict.find (ν := Ex S) b k <;> rfl

theorem bmarks_comp (b : Block S) (b' : Block String) : bmarks (comp b b') = compM (bmarks b) (bmarks b') := by
  unfold bmarks comp compM
  rw [List.map_map, List.map_map]
  refine List.map_congr_left fun p _ => ?_
  simp only [Function.comp_def, Ex.marks_bind]
  congr 2
  funext k
  exact (getD_bmarks b k).symm

theorem bmarks_scaleBy (c : ℂ) (b : Block S) : bmarks (scaleBy c b) = bmarks b := by
  unfold bmarks scaleBy
  rw [List.map_map]; rfl

theorem bmarks_divideBy (c : ℂ) (b : Block S) : bmarks (divideBy c b) = bmarks b := by
  unfold bmarks divideBy
  rw [List.map_map]; rfl

theorem bmarks_append (b b' : Block S) : bmarks (b ++ b') = bmarks b ++ bmarks b' := by simp [bmarks]

theorem bmarks_flatten (bs : List (Block S)) : bmarks bs.flatten = bs.flatMap bmarks := by
  simp only [bmarks, List.map_flatten, List.flatMap]; rfl

/-! ### Tables without parameters -/

/-- Entries read by `bernFlavioII`. -/
def mBernFlavioII (x : String) : Marks String := bmarks (bernFlavioIITable (indII x) (indIIfl x))
/-- Entries read by `flavioBernII`. -/
def mFlavioBernII (x : String) : Marks String := bmarks (flavioBernIITable (indII x) (indIIfl x))
/-- Entries read by `bernEosII`. -/
def mBernEosII (x : String) : Marks String := bmarks (bernEosIITable (indII x) (indIIeos x))
/-- Entries read by `fierzFlavioLep`. -/
noncomputable def mFierzFlavioNu (x : String) : Marks String := bmarks (fierzFlavioNuTable (indLep x) (indNuFl x) 0)
noncomputable def mFierzFlavioLep (x : String) : Marks String :=
  mFierzFlavioNu x ++ bmarks (fierzFlavioLepTable (indLep x) (indLepFl x) 0 0)
/-- Entries read by `flavioFierzLep`. -/
noncomputable def mFlavioFierzLep (x : String) : Marks String :=
  bmarks (flavioFierzLepTable (indLep x) (indLepFl x) (indNuFl x) 0 0 0)
/-- Entries read by `fierzEosLep`. -/
noncomputable def mFierzEosLep (x : String) : Marks String :=
  bmarks (fierzEosLepTable (indLep x) (String.ofList ((indLep x).toList.drop 2)) 0)
/-- Entries read by the dipole tables. -/
noncomputable def mFierzBernChrom (qq : String) : Marks String := bmarks (fierzBernChromTable qq 0 0)
noncomputable def mBernFierzChrom (qq : String) : Marks String := bmarks (bernFierzChromTable qq 0 0)
noncomputable def mFierzFlavioChrom (qq : String) : Marks String := bmarks (fierzFlavioChromTable qq (pyRev qq) 0 0)
noncomputable def mFlavioFierzChrom (qq : String) : Marks String := bmarks (flavioFierzChromTable qq (pyRev qq) 0 0)
noncomputable def mFierzEosChrom (qq : String) : Marks String := bmarks (fierzEosChromTable qq 0 0 0 0 0)

theorem bmarks_bernFlavioII (hP : Spec.Admissible P) {x : String} (hx : x ∈ namesII) :
    bmarks (okOr (bernFlavioII P x)) = mBernFlavioII x := by
  obtain ⟨u, d, l, lp, -, -, h⟩ := jmsBernII_eq hx
  rw [bernFlavioII_eq hP h, okOr_ok, bmarks_scaleBy]; rfl

theorem bmarks_flavioBernII (hP : Spec.Admissible P) {x : String} (hx : x ∈ namesII) :
    bmarks (okOr (flavioBernII P x)) = mFlavioBernII x := by
  obtain ⟨u, d, l, lp, -, -, h⟩ := jmsBernII_eq hx
  rw [flavioBernII_eq hP h, okOr_ok, bmarks_divideBy]; rfl

theorem bmarks_bernEosII (hP : Spec.Admissible P) {x : String} (hx : x ∈ namesII) :
    bmarks (okOr (bernEosII P x)) = mBernEosII x := by
  obtain ⟨u, d, l, lp, -, -, h⟩ := jmsBernII_eq hx
  rw [bernEosII_eq hP h, okOr_ok, bmarks_scaleBy]; rfl

theorem bmarks_fierzFlavioLep (hP : Spec.Admissible P) {qq x : String} (hq : qq ∈ ["sb", "db", "ds"]) (hx : x ∈ namesLep qq) :
    bmarks (okOr (fierzFlavioLep P x true)) = mFierzFlavioLep x ∧ bmarks (okOr (fierzFlavioLep P x false)) = mFierzFlavioNu x := by
  obtain ⟨h1, h2⟩ := fierzFlavioLep_eq hP hq hx
  rw [h1, h2, okOr_ok, okOr_ok, bmarks_scaleBy, bmarks_scaleBy, bmarks_append]
  exact ⟨rfl, rfl⟩

theorem bmarks_flavioFierzLep (hP : Spec.Admissible P) {qq x : String} (hq : qq ∈ ["sb", "db", "ds"]) (hx : x ∈ namesLep qq) :
    bmarks (okOr (flavioFierzLep P x)) = mFlavioFierzLep x := by
  rw [flavioFierzLep_eq hP hq hx, okOr_ok, bmarks_divideBy]; rfl

theorem bmarks_fierzEosLep (hP : Spec.Admissible P) (x : String) : bmarks (okOr (fierzEosLep P x)) = mFierzEosLep x := by
  rw [fierzEosLep_eq hP, okOr_ok, bmarks_scaleBy]; rfl

theorem bmarks_fierzBernChrom (hP : Spec.Admissible P) (qq : String) : bmarks (okOr (fierzBernChrom P qq)) = mFierzBernChrom qq := by
  rw [fierzBernChrom_eq hP]; rfl

theorem bmarks_bernFierzChrom (hP : Spec.Admissible P) (qq : String) : bmarks (okOr (bernFierzChrom P qq)) = mBernFierzChrom qq := by
  rw [bernFierzChrom_eq hP]; rfl

theorem bmarks_fierzFlavioChrom (hP : Spec.Admissible P) {qq : String} (hq : qq ∈ ["sb", "db", "ds"]) :
    bmarks (okOr (fierzFlavioChrom P qq)) = mFierzFlavioChrom qq := by
  rw [fierzFlavioChrom_eq hP hq, okOr_ok, bmarks_scaleBy]; rfl

theorem bmarks_flavioFierzChrom (hP : Spec.Admissible P) {qq : String} (hq : qq ∈ ["sb", "db", "ds"]) :
    bmarks (okOr (flavioFierzChrom P qq)) = mFlavioFierzChrom qq := by
  rw [flavioFierzChrom_eq hP hq, okOr_ok, bmarks_divideBy]; rfl

theorem bmarks_fierzEosChrom (hP : Spec.Admissible P) (hm : P.p.m_b ^ 2 ≠ P.p.m_s ^ 2) (qq : String) :
    bmarks (okOr (fierzEosChrom P qq)) = mFierzEosChrom qq := by
  obtain ⟨eb, es, gb, gS, den, h⟩ := fierzEosChrom_eq hP hm qq
  rw [h, okOr_ok, bmarks_scaleBy]; rfl

/-! ### All tables of a translator -/

/-- Entries read by `JMS_to_flavio`. -/
noncomputable def mJmsFlavio : Marks JSrc :=
  (["sb", "db", "ds"].flatMap fun qq => compM (bmarks (okOr (jmsBernI qq))) (bmarks (okOr (bernFlavioI qq)))) ++
  (namesII.flatMap fun x => compM (bmarks (okOr (jmsBernII x))) (mBernFlavioII x)) ++
  (leptonPairs.flatMap fun l =>
    compM (bmarks (okOr (jmsFierzLep (nameLep "sb" l)))) (mFierzFlavioLep (nameLep "sb" l)) ++
    (compM (bmarks (okOr (jmsFierzLep (nameLep "db" l)))) (mFierzFlavioLep (nameLep "db" l)) ++
     compM (bmarks (okOr (jmsFierzLep (nameLep "ds" l)))) (mFierzFlavioNu (nameLep "ds" l)))) ++
  (compM (bmarks (okOr (jmsFierzChrom "sb"))) (mFierzFlavioChrom "sb") ++
   compM (bmarks (okOr (jmsFierzChrom "db"))) (mFierzFlavioChrom "db"))

/-- Entries read by `JMS_to_Bern`. -/
noncomputable def mJmsBern : Marks JSrc :=
  (["sb", "db", "ds"].flatMap fun qq => bmarks (okOr (jmsBernI qq))) ++
  (namesII.flatMap fun x => bmarks (okOr (jmsBernII x))) ++
  (namesV.flatMap fun x => compM (bmarks (okOr (jmsFierzV x))) (bmarks (okOr (fierzBernV x)))) ++
  (leptonPairs.flatMap fun l =>
    compM (bmarks (okOr (jmsFierzLep (nameLep "sb" l)))) (bmarks (okOr (fierzBernLep (nameLep "sb" l)))) ++
    (compM (bmarks (okOr (jmsFierzLep (nameLep "db" l)))) (bmarks (okOr (fierzBernLep (nameLep "db" l)))) ++
     compM (bmarks (okOr (jmsFierzLep (nameLep "ds" l)))) (bmarks (okOr (fierzBernLep (nameLep "ds" l)))))) ++
  (compM (bmarks (okOr (jmsFierzChrom "sb"))) (mFierzBernChrom "sb") ++
   (compM (bmarks (okOr (jmsFierzChrom "db"))) (mFierzBernChrom "db") ++
    compM (bmarks (okOr (jmsFierzChrom "ds"))) (mFierzBernChrom "ds")))

/-- Entries read by `Bern_to_flavio`. -/
noncomputable def mBernFlavio : Marks String :=
  (["sb", "db", "ds"].flatMap fun qq => bmarks (okOr (bernFlavioI qq))) ++
  (namesII.flatMap fun x => mBernFlavioII x) ++
  (leptonPairs.flatMap fun l =>
    compM (bmarks (okOr (bernFierzLep (nameLep "sb" l)))) (mFierzFlavioLep (nameLep "sb" l)) ++
    (compM (bmarks (okOr (bernFierzLep (nameLep "db" l)))) (mFierzFlavioLep (nameLep "db" l)) ++
     compM (bmarks (okOr (bernFierzLep (nameLep "ds" l)))) (mFierzFlavioNu (nameLep "ds" l)))) ++
  (compM (mBernFierzChrom "sb") (mFierzFlavioChrom "sb") ++ compM (mBernFierzChrom "db") (mFierzFlavioChrom "db"))

/-- Entries read by `flavio_to_Bern`. -/
noncomputable def mFlavioBern : Marks String :=
  (["bs", "bd", "sd"].flatMap fun qq => bmarks (okOr (flavioBernI qq))) ++
  (namesII.flatMap fun x => mFlavioBernII x) ++
  (leptonPairs.flatMap fun l =>
    compM (mFlavioFierzLep (nameLep "sb" l)) (bmarks (okOr (fierzBernLep (nameLep "sb" l)))) ++
    compM (mFlavioFierzLep (nameLep "db" l)) (bmarks (okOr (fierzBernLep (nameLep "db" l))))) ++
  (compM (mFlavioFierzChrom "sb") (mFierzBernChrom "sb") ++ compM (mFlavioFierzChrom "db") (mFierzBernChrom "db"))

/-- Entries read by `_Fierz_to_EOS_V`. -/
noncomputable def mEosV : Marks JSrc :=
  fierzEosVTable.map fun p => (p.1, markSubst
    (fun s => (Dict.getD (ν := Ex JSrc) (Dict.getD (ν := Block JSrc) eosDicts s.1 []) s.2 Ex.zero).marks) p.2.marks)

/-- Entries read by `JMS_to_EOS`. -/
noncomputable def mEos : Marks JSrc :=
  (["e", "mu"].flatMap fun l => compM (bmarks (okOr (jmsBernII (nameLep "ub" (l, l))))) (mBernEosII (nameLep "ub" (l, l)))) ++
  (mEosV ++
   (compM (bmarks (okOr (jmsFierzLep "sbl_enu_e"))) (mFierzEosLep "sbl_enu_e") ++
    (compM (bmarks (okOr (jmsFierzLep "sbl_munu_mu"))) (mFierzEosLep "sbl_munu_mu") ++
     compM (bmarks (okOr (jmsFierzChrom "sb"))) (mFierzEosChrom "sb"))))

/-- Entries read by `JMS_to_FormFlavor`. -/
noncomputable def mFormFlavor : Marks JSrc :=
  (["sb", "db", "ds", "uc"].flatMap fun qq => compM (bmarks (okOr (jmsBernI qq))) (bmarks (okOr (bernFormFlavorI qq)))) ++
  (bmarks (okOr (jmsFormFlavorLep "bs")) ++ bmarks (okOr (jmsFormFlavorLep "bd"))) ++
  (bmarks (formFlavorDownTable "sb" 1 2 0 0) ++ (bmarks (formFlavorDownTable "db" 0 2 0 0) ++
   (bmarks (formFlavorUpTable "uu" 0 0 0 0) ++ (bmarks (formFlavorDownTable "dd" 0 0 0 0) ++
    (bmarks (formFlavorLepTable "mt" 1 2 0 0) ++ (bmarks (formFlavorLepTable "em" 0 1 0 0) ++
     bmarks (formFlavorLepTable "et" 0 2 0 0)))))))

theorem bmarks_blkJmsFlavio (hP : Spec.Admissible P) : bmarks (blkJmsFlavio P).flatten = mJmsFlavio := by
  rw [bmarks_flatten]
  unfold blkJmsFlavio mJmsFlavio
  simp only [List.flatMap_append, List.flatMap_map, List.flatMap_assoc]
  refine congrArg₂ _ (congrArg₂ _ (congrArg₂ _ ?_ ?_) ?_) ?_
  · exact List.flatMap_congr fun qq hq => bmarks_comp _ _
  · exact List.flatMap_congr fun x hx => by rw [bmarks_comp, bmarks_bernFlavioII hP hx]
  · refine List.flatMap_congr fun l hl => ?_
    simp only [List.flatMap_cons, List.flatMap_nil, bmarks_comp, List.append_nil,
        (bmarks_fierzFlavioLep hP (by simp) (mem_namesLep "sb" hl)).1, (bmarks_fierzFlavioLep hP (by simp) (mem_namesLep "db" hl)).1,
        (bmarks_fierzFlavioLep hP (by simp) (mem_namesLep "ds" hl)).2]
  · simp only [List.flatMap_cons, List.flatMap_nil, bmarks_comp, List.append_nil]
    rw [bmarks_fierzFlavioChrom hP (by simp), bmarks_fierzFlavioChrom hP (by simp)]

theorem bmarks_blkJmsBern (hP : Spec.Admissible P) : bmarks (blkJmsBern P).flatten = mJmsBern := by
  rw [bmarks_flatten]
  unfold blkJmsBern mJmsBern
  simp only [List.flatMap_append, List.flatMap_map, List.flatMap_assoc]
  refine congrArg₂ _ (congrArg₂ _ (congrArg₂ _ (congrArg₂ _ rfl rfl) ?_) ?_) ?_
  · exact List.flatMap_congr fun x hx => bmarks_comp _ _
  · refine List.flatMap_congr fun l hl => ?_
    simp only [List.flatMap_cons, List.flatMap_nil, bmarks_comp, List.append_nil]
  · simp only [List.flatMap_cons, List.flatMap_nil, bmarks_comp, bmarks_fierzBernChrom hP, List.append_nil]

theorem bmarks_blkBernFlavio (hP : Spec.Admissible P) : bmarks (blkBernFlavio P).flatten = mBernFlavio := by
  rw [bmarks_flatten]
  unfold blkBernFlavio mBernFlavio
  simp only [List.flatMap_append, List.flatMap_map, List.flatMap_assoc]
  refine congrArg₂ _ (congrArg₂ _ (congrArg₂ _ rfl ?_) ?_) ?_
  · exact List.flatMap_congr fun x hx => bmarks_bernFlavioII hP hx
  · refine List.flatMap_congr fun l hl => ?_
    simp only [List.flatMap_cons, List.flatMap_nil, bmarks_comp, List.append_nil,
        (bmarks_fierzFlavioLep hP (by simp) (mem_namesLep "sb" hl)).1, (bmarks_fierzFlavioLep hP (by simp) (mem_namesLep "db" hl)).1,
        (bmarks_fierzFlavioLep hP (by simp) (mem_namesLep "ds" hl)).2]
  · simp only [List.flatMap_cons, List.flatMap_nil, bmarks_comp, List.append_nil, bmarks_bernFierzChrom hP]
    rw [bmarks_fierzFlavioChrom hP (by simp), bmarks_fierzFlavioChrom hP (by simp)]

theorem bmarks_blkFlavioBern (hP : Spec.Admissible P) : bmarks (blkFlavioBern P).flatten = mFlavioBern := by
  rw [bmarks_flatten]
  unfold blkFlavioBern mFlavioBern
  simp only [List.flatMap_append, List.flatMap_map, List.flatMap_assoc]
  refine congrArg₂ _ (congrArg₂ _ (congrArg₂ _ rfl ?_) ?_) ?_
  · exact List.flatMap_congr fun x hx => bmarks_flavioBernII hP hx
  · refine List.flatMap_congr fun l hl => ?_
    simp only [List.flatMap_cons, List.flatMap_nil, bmarks_comp, List.append_nil,
        bmarks_flavioFierzLep hP (by simp) (mem_namesLep "sb" hl), bmarks_flavioFierzLep hP (by simp) (mem_namesLep "db" hl)]
  · simp only [List.flatMap_cons, List.flatMap_nil, bmarks_comp, List.append_nil, bmarks_fierzBernChrom hP]
    rw [bmarks_flavioFierzChrom hP (by simp), bmarks_flavioFierzChrom hP (by simp)]

theorem bmarks_blkEosV (hP : Spec.Admissible P) : bmarks (blkEosV P) = mEosV := by
  unfold blkEosV mEosV
  rw [fierzEosV_eq hP, okOr_ok]
  unfold bmarks scaleBy
  simp only [List.map_map, Function.comp_def, Ex.marks_bind]; rfl

theorem bmarks_blkEos (hP : Spec.Admissible P) (hm : P.p.m_b ^ 2 ≠ P.p.m_s ^ 2) : bmarks (blkEos P).flatten = mEos := by
  have hII : ∀ l ∈ ["e", "mu"], nameLep "ub" (l, l) ∈ namesII := by decide +kernel
  rw [bmarks_flatten]
  unfold blkEos mEos
  simp only [List.flatMap_append, List.flatMap_map]
  refine congrArg₂ _ ?_ ?_
  · exact List.flatMap_congr fun l hl => by rw [bmarks_comp, bmarks_bernEosII hP (hII l hl)]
  · simp only [List.flatMap_cons, List.flatMap_nil, bmarks_comp, List.append_nil, bmarks_fierzEosLep hP, bmarks_fierzEosChrom hP hm,
      bmarks_blkEosV hP]

theorem bmarks_blkFormFlavor (hP : Spec.Admissible P) : bmarks (blkFormFlavor P).flatten = mFormFlavor := by
  obtain ⟨h1, h2, h3, h4, h5, h6, h7⟩ := formFlavorChrom_eq hP
  rw [bmarks_flatten]
  unfold blkFormFlavor mFormFlavor
  simp only [List.flatMap_append, List.flatMap_map]
  refine congrArg₂ _ (congrArg₂ _ ?_ ?_) ?_
  · exact List.flatMap_congr fun qq hq => bmarks_comp _ _
  · simp only [List.flatMap_cons, List.flatMap_nil, List.append_nil]
  · simp only [List.flatMap_cons, List.flatMap_nil, List.append_nil, h1, h2, h3, h4, h5, h6, h7, okOr_ok]
    rfl

/-! ### Covariance -/

open Spec

theorem weight_conj (φ : Kind × Fin 3 → ℂ) (f : Flavour) : f.conj.weight φ = starRingEnd ℂ (f.weight φ) := by
  simp only [Flavour.weight, Flavour.conj, map_mul, map_list_prod, List.map_map]
  rw [mul_comm]
  congr 2
  refine List.map_congr_left fun x _ => ?_
  simp

theorem weight_same (φ : Kind × Fin 3 → ℂ) {f g : Flavour} (h : f.Same g) : f.weight φ = g.weight φ := by
  unfold Flavour.weight
  rw [(h.1.map _).prod_eq, (h.2.map _).prod_eq]

/-- The same fields. -/
def sameFields (f g : Flavour) : Bool := decide (f.Same g)

/-- Equal charges. -/
def sameCharge (f g : Flavour) : Bool := (f.bar ++ f.fld ++ g.bar ++ g.fld).all fun x => f.charge x == g.charge x

theorem charge_eq {f g : Flavour} (h : sameCharge f g = true) (x : Kind × Fin 3) : f.charge x = g.charge x := by
  by_cases hx : x ∈ f.bar ++ f.fld ++ g.bar ++ g.fld
  · simpa using List.all_eq_true.1 h x hx
  · simp only [List.mem_append, not_or] at hx
    obtain ⟨⟨⟨h1, h2⟩, h3⟩, h4⟩ := hx
    simp [Flavour.charge, List.count_eq_zero_of_not_mem, h1, h2, h3, h4]

theorem prod_count (φ : Kind × Fin 3 → ℂ) (s : Finset (Kind × Fin 3)) (l : List (Kind × Fin 3)) (hl : ∀ x ∈ l, x ∈ s) :
    (l.map φ).prod = ∏ x ∈ s, φ x ^ l.count x := by
  induction l with
  | nil => simp
  | cons a l ih =>
    rw [List.map_cons, List.prod_cons, ih fun x hx => hl x (List.mem_cons_of_mem _ hx)]
    have : ∀ x ∈ s, φ x ^ (a :: l).count x = (if x = a then φ x else 1) * φ x ^ l.count x := by
      intro x _
      by_cases h : x = a
      · subst h; simp [pow_succ, mul_comm]
      · rw [List.count_cons_of_ne (Ne.symm h), if_neg h, one_mul]
    rw [Finset.prod_congr rfl this, Finset.prod_mul_distrib, Finset.prod_ite_eq' s a φ, if_pos (hl a List.mem_cons_self)]

/-- For phases, the factor is determined by the charges. -/
theorem weight_charge {φ : Kind × Fin 3 → ℂ} (hφ : ∀ x, φ x * starRingEnd ℂ (φ x) = 1) {f g : Flavour} (h : sameCharge f g = true) :
    f.weight φ = g.weight φ := by
  have h0 : ∀ x, φ x ≠ 0 := fun x e => by simpa [e] using hφ x
  have hc : ∀ x, starRingEnd ℂ (φ x) = (φ x)⁻¹ := fun x => eq_inv_of_mul_eq_one_right (hφ x)
  have key : ∀ k : Flavour, (∀ x ∈ k.bar ++ k.fld, x ∈ (f.bar ++ f.fld ++ g.bar ++ g.fld).toFinset) →
      k.weight φ = ∏ x ∈ (f.bar ++ f.fld ++ g.bar ++ g.fld).toFinset, φ x ^ k.charge x := by
    intro k hk
    unfold Flavour.weight
    rw [prod_count φ _ k.fld fun x hx => hk x (List.mem_append_right _ hx),
      prod_count (fun x => starRingEnd ℂ (φ x)) _ k.bar fun x hx => hk x (List.mem_append_left _ hx), ← Finset.prod_mul_distrib]
    refine Finset.prod_congr rfl fun x _ => ?_
    rw [hc, Flavour.charge, zpow_sub₀ (h0 x), zpow_natCast, zpow_natCast, inv_pow, div_eq_mul_inv, mul_comm]
  rw [key f (by simp; tauto), key g (by simp; tauto)]
  exact Finset.prod_congr rfl fun x _ => by rw [charge_eq h]

/-- The flavour, conjugated for conjugated entries. -/
def Spec.Flavour.conjIf (c : Bool) (f : Flavour) : Flavour := if c then f.conj else f

theorem weight_conjIf (φ : Kind × Fin 3 → ℂ) (c : Bool) (f : Flavour) : (f.conjIf c).weight φ = Verif.conjIf c (f.weight φ) := by
  cases c
  · rfl
  · exact weight_conj φ f

/-- Every entry read for a key has its flavour, in the sense of `eqv`; every key has a flavour, or is one of the list `ex`. -/
def consistent (eqv : Flavour → Flavour → Bool) (ex : List String) (fs : S → Option Flavour) (fn : String → Option Flavour)
    (M : Marks S) : Bool :=
  M.all fun p => match fn p.1 with
    | none => ex.contains p.1
    | some f => p.2.all fun m => match fs m.2 with
      | none => false
      | some g => eqv f (g.conjIf m.1)

theorem consistent_split {eqv : Flavour → Flavour → Bool} {ex : List String} {fs : S → Option Flavour} {fn : String → Option Flavour}
    {M : Marks S} (n : ℕ) (h1 : consistent eqv ex fs fn (M.take n) = true) (h2 : consistent eqv ex fs fn (M.drop n) = true) :
    consistent eqv ex fs fn M = true := by
  unfold consistent at h1 h2 ⊢
  rw [← List.take_append_drop n M, List.all_append, h1, h2]
  rfl

theorem bval_covariant {eqv : Flavour → Flavour → Bool} {ex : List String} {fs : S → Option Flavour} {fn : String → Option Flavour} {B : Block S}
    (hc : consistent eqv ex fs fn (bmarks B) = true) {φ : Kind × Fin 3 → ℂ}
    (he : ∀ f g, eqv f g = true → f.weight φ = g.weight φ) {v v' : S → ℂ}
    (hv : ∀ s g, fs s = some g → v' s = g.weight φ * v s) (n : String) (f : Flavour) (hf : fn n = some f) :
    Dict.getD (bval v' B) n 0 = f.weight φ * Dict.getD (bval v B) n 0 := by
  rw [getD_bval, getD_bval]
  refine Ex.val_marks _ _ fun m hm => ?_
  rw [← getD_bmarks, Dict.getD] at hm
  cases h : Dict.find (bmarks B) n with
  | none => simp [h] at hm
  | some l =>
    rw [h] at hm
    have := List.all_eq_true.1 hc _ (Dict.mem_of_find h)
    simp only [hf] at this
    have := List.all_eq_true.1 this m hm
    cases hg : fs m.2 with
    | none => simp [hg] at this
    | some g =>
      simp only [hg] at this
      rw [hv _ _ hg, he _ _ this, weight_conjIf, conjIf_xor]
      simp [conjIf]

/-- Every key has a flavour. -/
theorem consistent_named {eqv : Flavour → Flavour → Bool} {ex : List String} {fs : S → Option Flavour} {fn : String → Option Flavour}
    {B : Block S} (hc : consistent eqv ex fs fn (bmarks B) = true) {v : S → ℂ} {n : String} (hn : n ∈ Dict.keys (bval v B)) :
    n ∈ ex ∨ ∃ f, fn n = some f := by
  rw [keys_bval] at hn
  obtain ⟨p, hp, rfl⟩ := List.mem_map.1 hn
  have := List.all_eq_true.1 hc (p.1, p.2.marks) (List.mem_map.2 ⟨p, hp, rfl⟩)
  dsimp only at this
  cases h : fn p.1 with
  | none => rw [h] at this; exact .inl (by simpa using this)
  | some f => exact .inr ⟨f, rfl⟩

theorem jmsOps_herm : ∀ o ∈ jmsOps, o.name ∈ jmsHermitian → o.k1 = o.k2 ∧ o.k3 = o.k4 := by decide +kernel
theorem jmsOps_exch : ∀ o ∈ jmsOps, o.name ∈ jmsExchange → o.k1 = o.k3 ∧ o.k2 = o.k4 := by decide +kernel

theorem jmsFlavour_herm {k : String} {i : List (Fin 3)} {g : Flavour} (h : jmsFlavour (k, i) = some g) (hk : k ∈ jmsHermitian) :
    jmsFlavour (k, permHerm i) = some g.conj := by
  unfold jmsFlavour at h
  split at h
  · next a b e =>
    dsimp only at e; subst e
    obtain ⟨o, ho, rfl⟩ := Option.map_eq_some_iff.1 h
    have := List.mem_of_find?_eq_some ho
    have hn : o.1 = k := by simpa using List.find?_some ho
    rw [← hn] at hk
    have dis : ∀ o ∈ jmsDipoles, o.1 ∉ jmsHermitian := by decide +kernel
    exact absurd hk (dis o this)
  · next a b c d e =>
    dsimp only at e; subst e
    obtain ⟨o, ho, rfl⟩ := Option.map_eq_some_iff.1 h
    have hm := List.mem_of_find?_eq_some ho
    have hn : o.name = k := by simpa using List.find?_some ho
    obtain ⟨e1, e2⟩ := jmsOps_herm o hm (hn ▸ hk)
    dsimp only at ho
    simp only [permHerm, jmsFlavour, ho, Option.map_some, Flavour.conj, e1, e2]
  · cases h

theorem jmsFlavour_exch {k : String} {i : List (Fin 3)} {g : Flavour} (h : jmsFlavour (k, i) = some g) (hk : k ∈ jmsExchange) :
    ∃ g', jmsFlavour (k, permCurrent i) = some g' ∧ g.Same g' := by
  unfold jmsFlavour at h
  split at h
  · next a b e =>
    dsimp only at e; subst e
    obtain ⟨o, ho, rfl⟩ := Option.map_eq_some_iff.1 h
    have := List.mem_of_find?_eq_some ho
    have hn : o.1 = k := by simpa using List.find?_some ho
    rw [← hn] at hk
    have dis : ∀ o ∈ jmsDipoles, o.1 ∉ jmsExchange := by decide +kernel
    exact absurd hk (dis o this)
  · next a b c d e =>
    dsimp only at e; subst e
    obtain ⟨o, ho, rfl⟩ := Option.map_eq_some_iff.1 h
    have hm := List.mem_of_find?_eq_some ho
    have hn : o.name = k := by simpa using List.find?_some ho
    obtain ⟨e1, e2⟩ := jmsOps_exch o hm (hn ▸ hk)
    dsimp only at ho
    refine ⟨⟨[(o.k1, c), (o.k3, a)], [(o.k2, d), (o.k4, b)]⟩, by simp [permCurrent, jmsFlavour, ho], ?_⟩
    rw [e1, e2]
    exact ⟨List.Perm.swap _ _ _, List.Perm.swap _ _ _⟩
  · cases h

/-- The filled tensors are covariant if the listed coefficients are. -/
theorem jval_covariant {L : List String} {C C' : Dict String ℂ} {φ : Kind × Fin 3 → ℂ}
    (h : ∀ k i g, jmsFlavour (k, i) = some g → Dict.getD C' (label k i) 0 = g.weight φ * Dict.getD C (label k i) 0)
    (s : JSrc) (g : Flavour) (hs : jmsFlavour s = some g) : jval L C' s = g.weight φ * jval L C s := by
  obtain ⟨k, i⟩ := s
  obtain ⟨hh, hc⟩ := hermKeys_spec k
  have hl : ∀ j g, jmsFlavour (k, j) = some g → listedOpt L C' k j = (listedOpt L C k j).map (g.weight φ * ·) := by
    intro j g hj
    unfold listedOpt
    split_ifs
    · simp [h k j g hj]
    · rfl
  have e0 := hl i g hs
  have eh : k ∈ jmsHermitian → listedOpt L C' k (permHerm i) = (listedOpt L C k (permHerm i)).map (starRingEnd ℂ (g.weight φ) * ·) := by
    intro hk
    rw [hl _ _ (jmsFlavour_herm hs hk), weight_conj]
  have ec : k ∈ jmsExchange → listedOpt L C' k (permCurrent i) = (listedOpt L C k (permCurrent i)).map (g.weight φ * ·) := by
    intro hk
    obtain ⟨g', h1, h2⟩ := jmsFlavour_exch hs hk
    rw [hl _ _ h1, weight_same φ h2]
  have ehc : k ∈ jmsHermitian → k ∈ jmsExchange → listedOpt L C' k (permCurrent (permHerm i)) =
      (listedOpt L C k (permCurrent (permHerm i))).map (starRingEnd ℂ (g.weight φ) * ·) := by
    intro hk hk'
    obtain ⟨g', h1, h2⟩ := jmsFlavour_exch (jmsFlavour_herm hs hk) hk'
    rw [hl _ _ h1, ← weight_same φ h2, weight_conj]
  have fin : fillOpt k (listedOpt L C' k) i = (fillOpt k (listedOpt L C k) i).map (g.weight φ * ·) := by
    unfold fillOpt
    split_ifs with h1 h2 h3
    · rw [e0, eh (hh.1 (.inl h1))]
      cases listedOpt L C k i <;> cases listedOpt L C k (permHerm i) <;> simp
    · rw [e0, ec (hc.1 (.inl h2))]
      cases listedOpt L C k i <;> cases listedOpt L C k (permCurrent i) <;> simp
    · rw [e0, eh (hh.1 (.inr h3)), ec (hc.1 (.inr h3)), ehc (hh.1 (.inr h3)) (hc.1 (.inr h3))]
      cases listedOpt L C k i <;> cases listedOpt L C k (permHerm i) <;> cases listedOpt L C k (permCurrent i) <;>
        cases listedOpt L C k (permCurrent (permHerm i)) <;> simp
    · exact e0
  unfold jval
  dsimp only
  rw [fin]
  cases fillOpt k (listedOpt L C k) i <;> simp

/-! ### Locality -/

/-- The same fields, or those of the conjugate operator. -/
def Spec.Flavour.Like (f g : Flavour) : Prop := f.Same g ∨ f.Same g.conj

theorem Spec.Flavour.Same.symm {f g : Flavour} (h : f.Same g) : g.Same f := ⟨h.1.symm, h.2.symm⟩

theorem Spec.Flavour.Same.trans {f g k : Flavour} (h : f.Same g) (h' : g.Same k) : f.Same k := ⟨h.1.trans h'.1, h.2.trans h'.2⟩

theorem Spec.Flavour.Same.conj {f g : Flavour} (h : f.Same g) : f.conj.Same g.conj := ⟨h.2, h.1⟩

theorem Spec.Flavour.Same.like_conjIf {f g : Flavour} {c : Bool} (h : f.Same (g.conjIf c)) : g.Like f := by
  cases c
  · exact .inl h.symm
  · exact .inr h.conj.symm

theorem bval_local {ex : List String} {fs : S → Option Flavour} {fn : String → Option Flavour} {B : Block S}
    (hc : consistent sameFields ex fs fn (bmarks B) = true) {v v' : S → ℂ} {n : String} {f : Flavour} (hf : fn n = some f)
    (hv : ∀ s g, fs s = some g → g.Like f → v' s = v s) :
    Dict.getD (bval v' B) n 0 = Dict.getD (bval v B) n 0 := by
  rw [getD_bval, getD_bval]
  have := Ex.val_marks (v := v) (v' := v') (Dict.getD (ν := Ex S) B n Ex.zero) 1 fun m hm => ?_
  · rwa [one_mul] at this
  rw [← getD_bmarks, Dict.getD] at hm
  cases h : Dict.find (bmarks B) n with
  | none => simp [h] at hm
  | some l =>
    rw [h] at hm
    have := List.all_eq_true.1 hc _ (Dict.mem_of_find h)
    simp only [hf] at this
    have := List.all_eq_true.1 this m hm
    cases hg : fs m.2 with
    | none => simp [hg] at this
    | some g =>
      simp only [hg] at this
      rw [hv _ _ hg (Flavour.Same.like_conjIf (of_decide_eq_true this))]
      cases m.1 <;> simp [conjIf]

theorem jval_local {L : List String} {C C' : Dict String ℂ} {f : Flavour}
    (h : ∀ k i g, jmsFlavour (k, i) = some g → g.Like f → Dict.getD C' (label k i) 0 = Dict.getD C (label k i) 0)
    (s : JSrc) (g : Flavour) (hs : jmsFlavour s = some g) (hg : g.Like f) : jval L C' s = jval L C s := by
  obtain ⟨k, i⟩ := s
  obtain ⟨hh, hc⟩ := hermKeys_spec k
  have lc : ∀ {g}, Flavour.Like g f → g.conj.Like f := fun h => h.elim (fun h => .inr h.conj) (fun h => .inl h.conj)
  have ls : ∀ {g g'}, Flavour.Same g g' → g.Like f → g'.Like f :=
    fun e h => h.elim (fun h => .inl (e.symm.trans h)) (fun h => .inr (e.symm.trans h))
  have hl : ∀ j g, jmsFlavour (k, j) = some g → g.Like f → listedOpt L C' k j = listedOpt L C k j := by
    intro j g hj hg
    unfold listedOpt
    rw [h k j g hj hg]
  have fin : fillOpt k (listedOpt L C' k) i = fillOpt k (listedOpt L C k) i := by
    unfold fillOpt
    split_ifs with h1 h2 h3
    · rw [hl _ _ hs hg, hl _ _ (jmsFlavour_herm hs (hh.1 (.inl h1))) (lc hg)]
    · obtain ⟨g', e1, e2⟩ := jmsFlavour_exch hs (hc.1 (.inl h2))
      rw [hl _ _ hs hg, hl _ _ e1 (ls e2 hg)]
    · obtain ⟨g', e1, e2⟩ := jmsFlavour_exch hs (hc.1 (.inr h3))
      obtain ⟨g'', e3, e4⟩ := jmsFlavour_exch (jmsFlavour_herm hs (hh.1 (.inr h3))) (hc.1 (.inr h3))
      rw [hl _ _ hs hg, hl _ _ e1 (ls e2 hg), hl _ _ (jmsFlavour_herm hs (hh.1 (.inr h3))) (lc hg), hl _ _ e3 (ls e4 (lc hg))]
    · exact hl _ _ hs hg
  unfold jval
  dsimp only
  rw [fin]

end Verif
