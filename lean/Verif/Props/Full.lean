import Verif.Spec.Full
import Verif.Lemmas.LagBern
import Verif.Props.MatchLag
import Verif.Props.LagFlavio

/-! C90: which sets of coefficients fix one effective Lagrangian. -/

set_option autoImplicit false

namespace Verif

open Spec

/-! ### The WET -/

theorem tied_value {L : List String} {C : Dict String ℂ} {J : JSrc → ℂ} (hJ : JmsFull L C J) {k : String} {c : Bool} {i j : List (Fin 3)}
    (h : Tied k c i j) : J (k, j) = conjIf c (J (k, i)) := by
  induction h with
  | refl i => rfl
  | herm c i p r s t hk _ ih => rw [hJ.herm k hk, ih]; cases c <;> simp [conjIf]
  | exch c i p r s t hk _ ih => rw [hJ.exch k hk, ih]

open Classical in
/-- Value of an entry, from a listed one that is tied to it; zero if there is none. -/
noncomputable def spread (L : List String) (C : Dict String ℂ) (s : JSrc) : ℂ :=
  if h : ∃ x : Bool × List (Fin 3), Tied s.1 x.1 s.2 x.2 ∧ label s.1 x.2 ∈ L then
    conjIf h.choose.1 (Dict.getD C (label s.1 h.choose.2) 0) else 0

theorem conjIf_self (c : Bool) (z : ℂ) : conjIf c (conjIf c z) = z := by cases c <;> simp [conjIf]

theorem spread_eq {L : List String} {C : Dict String ℂ} (hC : JmsConsistent L C) {k : String} {c : Bool} {i j : List (Fin 3)}
    (h : Tied k c i j) (hj : label k j ∈ L) : spread L C (k, i) = conjIf c (Dict.getD C (label k j) 0) := by
  have hx : ∃ x : Bool × List (Fin 3), Tied k x.1 i x.2 ∧ label k x.2 ∈ L := ⟨(c, j), h, hj⟩
  unfold spread
  rw [dif_pos hx]
  obtain ⟨h1, h2⟩ := hx.choose_spec
  have h3 := hC k _ _ _ (h1.symm.trans h) h2 hj
  change _ = conjIf _ _ at h3
  rw [h3, conjIf_xor]
  cases c <;> cases hx.choose.1 <;> rfl

/-- **C90** for the WET: tensors with the listed coefficients and the relations between the entries exist exactly if the listed
coefficients do not contradict each other. -/
theorem C90_jms (L : List String) (C : Dict String ℂ) : (∃ J, JmsFull L C J) ↔ JmsConsistent L C := by
  constructor
  · rintro ⟨J, hJ⟩ k c i j h hi hj
    rw [← hJ.listed k j hj, ← hJ.listed k i hi]
    exact tied_value hJ h
  · intro hC
    have tied : ∀ k c i j, Tied k c i j → spread L C (k, j) = conjIf c (spread L C (k, i)) := by
      intro k c i j h
      by_cases hx : ∃ x : Bool × List (Fin 3), Tied k x.1 i x.2 ∧ label k x.2 ∈ L
      · obtain ⟨⟨b, l⟩, h1, h2⟩ := hx
        rw [spread_eq hC h1 h2, spread_eq hC (h.symm.trans h1) h2, conjIf_xor]
      · have hy : ¬ ∃ x : Bool × List (Fin 3), Tied k x.1 j x.2 ∧ label k x.2 ∈ L := by
          rintro ⟨⟨b, l⟩, h1, h2⟩
          exact hx ⟨(c ^^ b, l), h.trans h1, h2⟩
        unfold spread
        rw [dif_neg hx, dif_neg hy]
        cases c <;> simp [conjIf]
    refine ⟨spread L C, fun k i hi => ?_, fun k hk p r s t => ?_, fun k hk p r s t => ?_⟩
    · exact spread_eq hC (Tied.refl i) hi
    · exact tied k true _ _ (Tied.herm false _ p r s t hk (Tied.refl _))
    · exact tied k false _ _ (Tied.exch false _ p r s t hk (Tied.refl _))

/-- If at most one of the entries tied to each other is listed, nothing but the reality of self-conjugate entries is required. -/
theorem C90_jms_real {L : List String} (hL : NoRepeats L) (C : Dict String ℂ) :
    (∃ J, JmsFull L C J) ↔ ∀ k i, Tied k true i i → label k i ∈ L → (Dict.getD C (label k i) 0).im = 0 := by
  rw [C90_jms]
  constructor
  · intro h k i ht hi
    have := h k true i i ht hi hi
    exact Complex.conj_eq_iff_im.1 this.symm
  · intro h k c i j ht hi hj
    obtain rfl := hL k c i j ht hi hj
    cases c with
    | false => rfl
    | true => exact (Complex.conj_eq_iff_im.2 (h k j ht hi)).symm

/-- **C90** for the WET: the tensors are unique wherever the listing covers the orbit of an entry. -/
theorem C90_jms_unique {L : List String} {C : Dict String ℂ} {J J' : JSrc → ℂ} (hJ : JmsFull L C J) (hJ' : JmsFull L C J') {k : String} {c : Bool}
    {i j : List (Fin 3)} (h : Tied k c i j) (hj : label k j ∈ L) : J (k, i) = J' (k, i) := by
  rw [tied_value hJ h.symm, tied_value hJ' h.symm, hJ.listed k j hj, hJ'.listed k j hj]

/-! ### The SMEFT -/

open Classical in
theorem complete_real {op : Spec.Op} {f : List (Fin 3) → ℂ} {i : List (Fin 3)} (hi : Indep op i) :
    (complete op (arrOf op f)).fn i = if IsReal op i then ((f i).re : ℂ) else f i := by
  have hl := indep_length hi
  split_ifs with h
  · cases op with
    | boson => match i, hl with | [], _ => rfl
    | two x y =>
      match i, hl with
      | [p, r], _ =>
      obtain ⟨c, hc, hr⟩ := h
      simp only [complete, arrOf, Arr.fn, hc]
      rw [Option.elim, C31_matrix_free c _ (p, r) (hi c hc), if_pos hr]
    | four x y z w =>
      match i, hl with
      | [p, r, s, t], _ =>
      obtain ⟨c, hc, hr⟩ := h
      simp only [complete, arrOf, Arr.fn, hc]
      rw [Option.elim, C31_tensor_free c _ (p, r, s, t) (hi c hc), if_pos hr]
  · exact complete_keep hi fun hr => absurd hr h

/-- Tensors of the completed arrays. -/
noncomputable def fullS (d : Dict String ℂ) (s : JSrc) : ℂ := match opOf s.1 with
  | some op => (fullArr d s.1 op).fn s.2
  | none => 0

theorem fullS_eq {d : Dict String ℂ} {k : String} {op : Spec.Op} (h : IsOp k op) (i : List (Fin 3)) : fullS d (k, i) = (fullArr d k op).fn i := by
  unfold fullS
  rw [opOf_eq h]

theorem smeft_real {d : Dict String ℂ} {S : JSrc → ℂ} (hS : SmeftFull d S) {k : String} {op : Spec.Op} {i : List (Fin 3)} (ho : IsOp k op)
    (hi : Indep op i) (hr : IsReal op i) : (S (k, i)).im = 0 := by
  have hl := indep_length hi
  rw [← Complex.conj_eq_iff_im]
  cases op with
  | boson => match i, hl with | [], _ => exact Complex.conj_eq_iff_im.2 (hS.real k ho)
  | two x y =>
    match i, hl with
    | [p, r], _ =>
    obtain ⟨c, hc, h⟩ := hr
    have h2 := hS.rel2 k x y c ho hc
    cases c <;> simp only [Real2] at h
    subst h
    exact (h2 p p).symm
  | four x y z w =>
    match i, hl with
    | [p, r, s, t], _ =>
    obtain ⟨c, hc, h⟩ := hr
    have h4 := hS.rel4 k x y z w c ho hc
    cases c <;> simp only [Real4, Prod.mk.injEq] at h
    · have a1 := (h4 p r s t).1
      have a2 := (h4 r p t s).2
      dsimp only at a1 a2
      rcases h with ⟨h1, -, h2, -⟩ | ⟨h1, h2, -, -⟩
      · subst h1 h2; exact a1.symm
      · subst h1 h2; rw [← a1, ← a2]
    · have a1 := h4 p r s t
      dsimp only at a1
      obtain ⟨h1, -, h2, -⟩ := h
      subst h1 h2; exact a1.symm
    · have a1 := (h4 p r s t).1
      have a2 := (h4 r p t s).2.1
      dsimp only at a1 a2
      rcases h with ⟨h1, -, h2, -⟩ | ⟨h1, h2, -, -⟩ | ⟨h1, h2, h3, -⟩ | ⟨h1, h2, h3, -⟩
      · subst h1 h2; exact a1.symm
      · subst h1 h2; rw [← a1, ← a2]
      · subst h1 h2 h3; exact a1.symm
      · subst h1 h2 h3; exact a1.symm

/-- **C90** for the SMEFT: tensors with the given independent coefficients and the relations of the operators exist exactly if the
coefficients that Hermiticity makes real are real. -/
theorem C90_smeft (d : Dict String ℂ) : (∃ S, SmeftFull d S) ↔ ∀ key, RealName key → (Dict.getD d key 0).im = 0 := by
  constructor
  · rintro ⟨S, hS⟩ key ⟨k, op, i, ⟨ho, -, rfl⟩, hi, hr⟩
    rw [← hS.listed k op i ho hi]
    exact smeft_real hS ho hi hr
  · intro h
    have hc : ∀ k op, Conforms op (fullArr d k op) := fun k op => complete_conforms (IsArr.shape ⟨_, rfl⟩)
    refine ⟨fullS d, fun k op i ho hi => ?_, fun k ho => ?_, fun k x y c ho hc' => ?_, fun k x y z w c ho hc' => ?_⟩
    · rw [fullS_eq ho]
      exact complete_keep hi fun hr => h _ ⟨k, op, i, ⟨ho, indep_length hi, rfl⟩, hi, hr⟩
    · rw [fullS_eq ho]
      exact Complex.ofReal_im _
    · obtain ⟨m, hm, hr⟩ := hc k (.two x y)
      have := hr c hc'
      simp only [fullS_eq ho, hm]
      exact this
    · obtain ⟨m, hm, hr⟩ := hc k (.four x y z w)
      have := hr c hc'
      simp only [fullS_eq ho, hm]
      exact this

/-- **C90** for the SMEFT: the tensors are unique. -/
theorem C90_smeft_unique {d : Dict String ℂ} {S S' : JSrc → ℂ} (hS : SmeftFull d S) (hS' : SmeftFull d S') {k : String} {op : Spec.Op}
    (ho : IsOp k op) {i : List (Fin 3)} (hi : i.length = op.rank) : S (k, i) = S' (k, i) := by
  by_cases hb : op = .boson
  · subst hb
    match i, hi with
    | [], _ => rw [hS.listed k .boson [] ho trivial, hS'.listed k .boson [] ho trivial]
  · have := (full_arr hS ho hb).symm.trans (full_arr hS' ho hb)
    rw [← fn_arrOf (f := fun i => S (k, i)) hi, ← fn_arrOf (f := fun i => S' (k, i)) hi, this]

open Classical in
/-- The imaginary parts of real coefficients are dropped. -/
noncomputable def dropIm (d : Dict String ℂ) : Dict String ℂ := d.map fun p => (p.1, if RealName p.1 then (p.2.re : ℂ) else p.2)

theorem dropIm_keys (d : Dict String ℂ) : Dict.keys (dropIm d) = Dict.keys d := by simp [dropIm, Dict.keys]

open Classical in
theorem dropIm_getD (d : Dict String ℂ) (key : String) :
    Dict.getD (dropIm d) key 0 = if RealName key then ((Dict.getD d key 0).re : ℂ) else Dict.getD d key 0 := by
  induction d with
  | nil => simp [dropIm, Dict.getD, Dict.find]
  | cons p d ih =>
    unfold Dict.getD at ih ⊢
    simp only [dropIm, List.map_cons, Dict.find]
    by_cases h : p.1 = key
    · rw [if_pos h, if_pos h, h]; split_ifs <;> rfl
    · rw [if_neg h, if_neg h]; exact ih

theorem dropIm_real (d : Dict String ℂ) : ∃ S, SmeftFull (dropIm d) S := by
  rw [C90_smeft]
  intro key h
  rw [dropIm_getD, if_pos h, Complex.ofReal_im]

theorem dropIm_full (d : Dict String ℂ) {k : String} {op : Spec.Op} (ho : IsOp k op) : fullArr (dropIm d) k op = fullArr d k op := by
  refine complete_indep (complete_conforms (IsArr.shape ⟨_, rfl⟩)) (IsArr.complete ⟨_, rfl⟩) fun i hi => ?_
  classical
  have key : RealName (label k i) ↔ IsReal op i := by
    constructor
    · rintro ⟨k', op', i', ⟨ho', -, e⟩, -, hr⟩
      obtain ⟨rfl, rfl⟩ := label_inj (isOp_plain ho) (isOp_plain ho') e
      exact isOp_unique ho ho' ▸ hr
    · exact fun h => ⟨k, op, i, ⟨ho, indep_length hi, rfl⟩, hi, h⟩
  unfold fullArr
  rw [complete_real hi]
  unfold entries
  rw [dropIm_getD]
  simp only [key]

theorem dropIm_src (d : Dict String ℂ) : flatSrc (dropIm d) = flatSrc d := by
  have hp : ∀ k, IsOp k .boson → preArr (dropIm d) k .boson = preArr d k .boson := fun k ho => by
    unfold preArr
    rw [dropIm_full d ho, dropIm_keys]
  have hb : ∀ k ∈ ["phiWB", "G", "Gtilde"], IsOp k .boson := by decide +kernel
  have hw : (Dict.getD (dropIm d) "phiWB" 0).re = (Dict.getD d "phiWB" 0).re := by
    classical
    rw [dropIm_getD]; split_ifs <;> simp
  unfold flatSrc
  rw [hp _ (hb "G" (by simp)), hp _ (hb "Gtilde" (by simp)), hw]
  congr 1
  · funext k
    cases ho : opOf k with
    | none => rfl
    | some op => cases op <;> simp only [dropIm_full d (opOf_isOp ho)]
  · funext k
    cases ho : opOf k with
    | none => rfl
    | some op => cases op <;> simp only [dropIm_full d (opOf_isOp ho)]

open Classical in
/-- **C90** for matching: for every set of coefficients there is one that fixes tensors and gives the same result of the matching; it differs
in nothing but the imaginary parts of the coefficients that Hermiticity makes real. -/
theorem C90_matching (d : Dict String ℂ) (hw : Dict.WF d) (hd : ∀ key ∈ Dict.keys d, IsFlat key) :
    ∃ d', Dict.keys d' = Dict.keys d ∧
      (∀ key, Dict.getD d' key 0 = if RealName key then ((Dict.getD d key 0).re : ℂ) else Dict.getD d key 0) ∧
      (∃ S, SmeftFull d' S) ∧
      ∀ ckm L default scale par, warsawUpToJms ckm L default d' scale par = warsawUpToJms ckm L default d scale par := by
  refine ⟨dropIm d, dropIm_keys d, dropIm_getD d, dropIm_real d, fun ckm L default scale par => ?_⟩
  have hw' : Dict.WF (dropIm d) := by unfold Dict.WF; rw [dropIm_keys]; exact hw
  have hd' : ∀ key ∈ Dict.keys (dropIm d), IsFlat key := by rw [dropIm_keys]; exact hd
  unfold warsawUpToJms
  rw [matchAll_eq _ _ _ _ _ hw hd, matchAll_eq _ _ _ _ _ hw' hd', dropIm_src]

open Classical in
/-- **C90**: the effective Lagrangian of every successful matching, without assumptions on the tensors. -/
theorem C90_lagrangian {ckm : ℝ → ℝ → ℝ → ℝ → M3} {L : List String} {default : Par} {d D : Dict String ℂ} {scale : ℝ} {par : Option Par} {V : M3}
    {GF mW mZ α : ℝ} (hw : Dict.WF d) (hd : ∀ key ∈ Dict.keys d, IsFlat key)
    (h : warsawUpToJms ckm L default d scale par = .ok D) (hV : ckmOf ckm (withPar default par) = .ok V)
    (hG : Dict.find (withPar default par) "GF" = some GF) (hW : Dict.find (withPar default par) "m_W" = some mW)
    (hZ : Dict.find (withPar default par) "m_Z" = some mZ) (hA : Dict.find (withPar default par) "alpha_e" = some α) :
    ∃ (d' : Dict String ℂ) (S J : JSrc → ℂ),
      (∀ key, Dict.getD d' key 0 = if RealName key then ((Dict.getD d key 0).re : ℂ) else Dict.getD d key 0) ∧ SmeftFull d' S ∧
      WetFull L D J ∧ ∀ {p q r s : Leg}, p.Phys → q.Phys → r.Phys → s.Phys →
      (wetLag J).anti p q r s = (Four.rotL V fun p q r s => treeLag S (couplings GF mW mZ α S) p q r s -
        treeLag (fun _ => 0) (couplings GF mW mZ α fun _ => 0) p q r s).anti p q r s := by
  obtain ⟨d', h1, h2, ⟨S, hS⟩, h3⟩ := C90_matching d hw hd
  rw [← h3] at h
  obtain ⟨J, hJ, -, hl⟩ := match_tree (by unfold Dict.WF; rw [h1]; exact hw) (by rw [h1]; exact hd) hS h hV hG hW hZ hA
  exact ⟨d', S, J, h2, hS, hJ, hl⟩

/-! ### A listing with one member of every orbit -/

/-- Entries tied to `i`. -/
def orbitOf (k : String) (i : List (Fin 3)) : List (List (Fin 3)) :=
  [i] ++ (if k ∈ jmsHermitian then [permHerm i] else []) ++ (if k ∈ jmsExchange then [permCurrent i] else []) ++
    if k ∈ jmsHermitian ∧ k ∈ jmsExchange then [permCurrent (permHerm i)] else []

/-- The first entry of every orbit. -/
def oneJms : List String := jmsRanges.flatMap fun p : String × List ℕ =>
  ((allIdx p.2.length).filter fun i => decide (∀ j ∈ orbitOf p.1 i, idxCode i ≤ idxCode j)).map (label p.1)

theorem mem_oneJms {k : String} (hk : Plain k) {i : List (Fin 3)} :
    label k i ∈ oneJms ↔ ∃ r, (k, r) ∈ jmsRanges ∧ i.length = r.length ∧ ∀ j ∈ orbitOf k i, idxCode i ≤ idxCode j := by
  constructor
  · intro h
    obtain ⟨p, hp, h⟩ := List.mem_flatMap.1 h
    obtain ⟨j, hj, e⟩ := List.mem_map.1 h
    obtain ⟨hj, hc⟩ := List.mem_filter.1 hj
    obtain ⟨rfl, rfl⟩ := label_inj (jmsRanges_plain p hp).1 hk e
    exact ⟨p.2, hp, (mem_allIdx (jmsRank_spec p hp).2).1 hj, of_decide_eq_true hc⟩
  · rintro ⟨r, hr, hl, hc⟩
    exact List.mem_flatMap.2 ⟨_, hr, List.mem_map.2 ⟨i, List.mem_filter.2 ⟨(mem_allIdx (jmsRank_spec _ hr).2).2 hl, decide_eq_true hc⟩, rfl⟩⟩

theorem tied_orbit {k : String} {c : Bool} {i j : List (Fin 3)} (h : Tied k c i j) : j ∈ orbitOf k i := by
  unfold orbitOf
  rcases h.elim4 with ⟨rfl, -⟩ | ⟨h1, rfl, -⟩ | ⟨h1, rfl, -⟩ | ⟨h1, h2, rfl, -⟩ <;> simp [*]

theorem orbit_tied {k : String} {i j : List (Fin 3)} (h4 : k ∈ jmsHermitian ∨ k ∈ jmsExchange → i.length = 4) (h : j ∈ orbitOf k i) :
    ∃ c, Tied k c i j := by
  unfold orbitOf at h
  simp only [List.mem_append, List.mem_singleton] at h
  rcases h with ((rfl | h) | h) | h
  · exact ⟨false, Tied.refl _⟩
  · split_ifs at h with hh
    · rw [List.mem_singleton.1 h]; exact ⟨true, Tied.permHerm hh (h4 (.inl hh))⟩
    · cases h
  · split_ifs at h with hh
    · rw [List.mem_singleton.1 h]; exact ⟨false, Tied.permCurrent hh (h4 (.inr hh))⟩
    · cases h
  · split_ifs at h with hh
    · rw [List.mem_singleton.1 h]
      exact ⟨_, (Tied.permHerm hh.1 (h4 (.inl hh.1))).trans (Tied.permCurrent hh.2 (by rw [length_permHerm]; exact h4 (.inl hh.1)))⟩
    · cases h

theorem idxCode_inj4 : ∀ a b c d a' b' c' d' : Fin 3, idxCode [a, b, c, d] = idxCode [a', b', c', d'] → [a, b, c, d] = [a', b', c', d'] := by
  intro a b c d a' b' c' d' h
  simp only [idxCode, List.foldl] at h
  simp only [List.cons.injEq, and_true]
  omega

theorem idxCode_inj2 : ∀ a b a' b' : Fin 3, idxCode [a, b] = idxCode [a', b'] → [a, b] = [a', b'] := by
  intro a b a' b' h
  simp only [idxCode, List.foldl] at h
  simp only [List.cons.injEq, and_true]
  omega

theorem idxCode_inj {n : ℕ} (hn : n = 4 ∨ n = 2) {i j : List (Fin 3)} (hi : i.length = n) (hj : j.length = n) (h : idxCode i = idxCode j) : i = j := by
  rcases hn with rfl | rfl
  · match i, j, hi, hj with
    | [a, b, c, d], [a', b', c', d'], _, _ => exact idxCode_inj4 _ _ _ _ _ _ _ _ h
  · match i, j, hi, hj with
    | [a, b], [a', b'], _, _ => exact idxCode_inj2 _ _ _ _ h

theorem related_four : ∀ p ∈ jmsRanges, p.1 ∈ jmsHermitian ∨ p.1 ∈ jmsExchange → p.2.length = 4 := by decide +kernel

theorem exists_least (l : List (List (Fin 3))) (h : l ≠ []) : ∃ j ∈ l, ∀ x ∈ l, idxCode j ≤ idxCode x := by
  induction l with
  | nil => exact absurd rfl h
  | cons a l ih =>
    by_cases hl : l = []
    · subst hl; exact ⟨a, by simp⟩
    · obtain ⟨j, hj, hm⟩ := ih hl
      rcases le_total (idxCode a) (idxCode j) with h | h
      · exact ⟨a, by simp, fun x hx => (List.mem_cons.1 hx).elim (fun e => e ▸ le_rfl) fun hx => h.trans (hm x hx)⟩
      · exact ⟨j, by simp [hj], fun x hx => (List.mem_cons.1 hx).elim (fun e => e ▸ h) fun hx => hm x hx⟩

theorem oneJms_listing : JmsListing oneJms where
  listing := by
    obtain ⟨rank, h1, h2⟩ := allJms_listing.listing
    have sub : ∀ n ∈ oneJms, n ∈ allJms := by
      intro n hn
      obtain ⟨p, hp, hn⟩ := List.mem_flatMap.1 hn
      obtain ⟨i, hi, rfl⟩ := List.mem_map.1 hn
      exact List.mem_flatMap.2 ⟨p, hp, List.mem_map.2 ⟨i, (List.mem_filter.1 hi).1, rfl⟩⟩
    exact ⟨rank, fun n hn => h1 n (sub n hn), fun k i hk hi => h2 k i hk (sub _ hi)⟩
  full := by
    rintro ⟨k, i⟩ ⟨r, hr, hf⟩
    have hk := (jmsRanges_plain _ hr).1
    have hl := hf.length_eq
    have h4 : k ∈ jmsHermitian ∨ k ∈ jmsExchange → i.length = 4 := fun h => hl.trans (related_four _ hr h)
    -- the entry of the orbit with the smallest code
    obtain ⟨j, hj, hmin⟩ := exists_least (orbitOf k i) (by simp [orbitOf])
    obtain ⟨c, ht⟩ := orbit_tied h4 hj
    refine ⟨c, j, ht, (mem_oneJms hk).2 ⟨r, hr, ht.length ▸ hl, fun l hl' => ?_⟩⟩
    obtain ⟨c', ht'⟩ := orbit_tied (fun h => ht.length ▸ h4 h) hl'
    exact hmin l (tied_orbit (ht.trans ht'))

theorem oneJms_noRepeats : NoRepeats oneJms := by
  intro k c i j h hi hj
  by_cases hk : Plain k
  · obtain ⟨r, hr, hl, h1⟩ := (mem_oneJms hk).1 hi
    obtain ⟨r', hr', hl', h2⟩ := (mem_oneJms hk).1 hj
    exact idxCode_inj (jmsRank_spec _ hr).2 (h.length ▸ hl) hl (le_antisymm (h2 i (tied_orbit h.symm)) (h1 j (tied_orbit h)))
  · have hp : ∀ k ∈ jmsHermitian ++ jmsExchange, Plain k := by decide +kernel
    rcases h.elim4 with ⟨h, -⟩ | ⟨h, -⟩ | ⟨h, -⟩ | ⟨h, -⟩
    · exact h
    all_goals exact absurd (hp k (by simp [h])) hk

/-- **C90** for translation: if the listing has no two entries tied to each other and self-conjugate coefficients are real, the translation
to flavio succeeds, the tensors exist and are unique, and the Lagrangian is preserved. -/
theorem C90_translation {E : WEnv} {P : PEnv} {scale : ℝ} {par : Option Par} (hp : penv E scale par = .ok P) (hP : Admissible P)
    (hL : JmsListing E.jms) (hN : NoRepeats E.jms) (C : Dict String ℂ)
    (hC : ∀ k i, Tied k true i i → label k i ∈ E.jms → (Dict.getD C (label k i) 0).im = 0) :
    ∃ J D, JmsFull E.jms C J ∧ (∀ J', JmsFull E.jms C J' → ∀ s, IsJms s → J' s = J s) ∧ jmsToFlavio E C scale par = .ok D ∧
      ∀ p q r s : Leg, NCovered (flavioSectors P.p.GF P.p.alpha_e P.p.m_b P.V) p q r s → (jmsLag (dropOp "TedRR" J)).anti p q r s =
        (nLag (flavioSectors P.p.GF P.p.alpha_e P.p.m_b P.V) fun k => Dict.getD D k 0).anti p q r s := by
  obtain ⟨J, hJ⟩ := (C90_jms_real hN C).2 hC
  refine ⟨J, _, hJ, fun J' hJ' s hs => ?_, jmsToFlavio_tensor hp hP hL hJ, fun p q r s h => ?_⟩
  · obtain ⟨c, j, ht, hj⟩ := hL.full s hs
    exact C90_jms_unique hJ' hJ ht hj
  · exact C70_lagrangian hp hP hL hJ (jmsToFlavio_tensor hp hP hL hJ) h

/-! ### Examples -/

/-- A complex coefficient, the partner of which follows, and a real self-conjugate one. -/
noncomputable def exOne : Dict String ℂ := [("VedLL_1123", 2 + Complex.I), ("VedLL_1111", 3)]

theorem exOne_real : ∀ k i, Tied k true i i → label k i ∈ oneJms → (Dict.getD exOne (label k i) 0).im = 0 := by
  intro k i h hi
  have hk : Plain k := by
    have hp : ∀ k ∈ jmsHermitian ++ jmsExchange, Plain k := by decide +kernel
    rcases h.elim4 with ⟨-, h⟩ | ⟨h, -⟩ | ⟨h, -⟩ | ⟨h, -⟩
    · cases h
    all_goals exact hp k (by simp [h])
  simp only [exOne, Dict.getD, Dict.find]
  split_ifs with h1 h2
  · exfalso
    obtain ⟨rfl, rfl⟩ := label_inj (k := "VedLL") (i := [0, 0, 1, 2]) (by decide) hk h1
    have hx : "VedLL" ∉ jmsExchange := by decide
    rcases h.elim4 with ⟨-, h⟩ | ⟨-, h, -⟩ | ⟨h, -⟩ | ⟨-, h, -⟩
    · cases h
    · revert h; decide
    · exact hx h
    · exact hx h
  · simp
  · rfl

/-- The exchanged entry of the example is the conjugate of the listed one. -/
example : ∃ J, JmsFull oneJms exOne J ∧ J ("VedLL", [0, 0, 1, 2]) = 2 + Complex.I ∧ J ("VedLL", [0, 0, 2, 1]) = 2 - Complex.I := by
  obtain ⟨J, hJ⟩ := (C90_jms_real oneJms_noRepeats exOne).2 exOne_real
  have h1 : J ("VedLL", [0, 0, 1, 2]) = 2 + Complex.I := by
    rw [hJ.listed "VedLL" [0, 0, 1, 2] ((mem_oneJms (by decide)).2 ⟨[3, 3, 3, 3], by decide +kernel, rfl, by decide +kernel⟩)]
    rfl
  refine ⟨J, hJ, h1, ?_⟩
  rw [hJ.herm "VedLL" (by decide) 0 0 1 2, h1]
  apply Complex.ext <;> simp

/-- The translation theorem applies to it. -/
example : ∃ J D, JmsFull oneJms exOne J ∧ jmsToFlavio { exEnv with jms := oneJms } exOne 160 none = .ok D := by
  obtain ⟨J, D, h1, -, h2, -⟩ := C90_translation (E := { exEnv with jms := oneJms }) (scale := 160) (par := none) exEnv_ok exP_admissible
    oneJms_listing oneJms_noRepeats exOne exOne_real
  exact ⟨J, D, h1, h2⟩

/-- An imaginary self-conjugate coefficient does not fix tensors. -/
example : ¬ ∃ J, JmsFull oneJms [("VedLL_1111", Complex.I)] J := by
  rw [C90_jms_real oneJms_noRepeats]
  intro h
  have := h "VedLL" [0, 0, 0, 0] (Tied.herm false _ 0 0 0 0 (by decide) (Tied.refl _))
    ((mem_oneJms (by decide)).2 ⟨[3, 3, 3, 3], by decide +kernel, rfl, by decide +kernel⟩)
  have e : Dict.getD [("VedLL_1111", Complex.I)] (label "VedLL" [0, 0, 0, 0]) 0 = Complex.I := rfl
  rw [e] at this
  simp at this

/-- Coefficients of the SMEFT with a complex independent entry and a real diagonal one. -/
example : ∃ S, SmeftFull [("phiq1_12", Complex.I), ("phiq1_22", 5)] S ∧ S ("phiq1", [1, 0]) = -Complex.I := by
  have ho : IsOp "phiq1" (.two (b .q) (n .q)) := by decide +kernel
  obtain ⟨S, hS⟩ := (C90_smeft [("phiq1_12", Complex.I), ("phiq1_22", 5)]).2 (by
    rintro key ⟨k, op, i, ⟨hk, -, rfl⟩, -, hr⟩
    simp only [Dict.getD, Dict.find]
    split_ifs with h1 h2
    · exfalso
      obtain ⟨rfl, rfl⟩ := label_inj (k := "phiq1") (i := [0, 1]) (by decide) (isOp_plain hk) h1
      obtain rfl := isOp_unique ho hk
      obtain ⟨c, hc, h⟩ := hr
      obtain rfl : SymClass.herm = c := by simpa [cls2, b, n] using hc
      exact absurd h (by decide)
    · simp
    · rfl)
  refine ⟨S, hS, ?_⟩
  have h := hS.rel2 "phiq1" _ _ .herm ho rfl 0 1
  dsimp only at h
  rw [h, hS.listed "phiq1" _ [0, 1] ho (fun c hc => by decide)]
  exact Complex.conj_I

/-- An imaginary diagonal entry of a Hermitian matrix does not fix tensors, but is the same as zero in the matching. -/
example : (¬ ∃ S, SmeftFull [("phiq1_11", Complex.I)] S) ∧
    ∃ d', Dict.getD d' "phiq1_11" 0 = 0 ∧ (∃ S, SmeftFull d' S) ∧ ∀ ckm L default scale par,
      warsawUpToJms ckm L default d' scale par = warsawUpToJms ckm L default [("phiq1_11", Complex.I)] scale par := by
  have ho : IsOp "phiq1" (.two (b .q) (n .q)) := by decide +kernel
  have hr : RealName "phiq1_11" :=
    ⟨"phiq1", .two (b .q) (n .q), [0, 0], ⟨ho, rfl, rfl⟩, fun _ _ => by decide, .herm, rfl, rfl⟩
  constructor
  · rw [C90_smeft]
    intro h
    have := h "phiq1_11" hr
    simp [Dict.getD, Dict.find] at this
  · obtain ⟨d', -, h2, h3, h4⟩ := C90_matching [("phiq1_11", Complex.I)] (by simp [Dict.WF, Dict.keys]) (by
      intro key hk
      simp only [Dict.keys, List.map_cons, List.map_nil, List.mem_singleton] at hk
      exact ⟨"phiq1", .two (b .q) (n .q), [0, 0], ho, rfl, hk⟩)
    refine ⟨d', ?_, h3, h4⟩
    rw [h2, if_pos hr]
    simp [Dict.getD, Dict.find]

end Verif
