import Verif.Lemmas.LagTensor
import Verif.Lemmas.WetRound

/-! Coefficients of the Bern basis obtained from full JMS tensors. -/

set_option autoImplicit false

namespace Verif

open Spec

/-- The relations determine the tensors. -/
theorem jmsTensor_tied {L : List String} {C : Dict String ℂ} {J : JSrc → ℂ} (hJ : JmsFull L C J) {k : String} {c : Bool}
    {i j : List (Fin 3)} (h : Tied k c i j) : J (k, i) = conjIf c (J (k, j)) := by
  induction h with
  | refl i => rfl
  | herm c i p r s t hk _ ih =>
    rw [ih, hJ.herm k hk p r s t]
    cases c <;> simp [conjIf]
  | exch c i p r s t hk _ ih => rw [ih, hJ.exch k hk p r s t]

theorem jmsTensor_eq {L : List String} (hL : JmsListing L) {C : Dict String ℂ} {J : JSrc → ℂ} (hJ : JmsFull L C J) {s : JSrc}
    (hs : IsJms s) : jval L C s = J s := by
  obtain ⟨k, i⟩ := s
  obtain ⟨rank, hr⟩ := hL.listing
  obtain ⟨c, j, ht, hj⟩ := hL.full _ hs
  obtain ⟨r, hm, -⟩ := hs
  obtain ⟨hp, -⟩ := jmsRanges_plain _ hm
  obtain ⟨w, hw⟩ := fillOpt_isSome (f := listedOpt L C k) ht (by unfold listedOpt; rw [if_pos hj])
  have h4 : k ∈ jmsHermitian ∨ k ∈ jmsExchange → i.length = 4 := by
    intro hk
    rw [Tied.length ht, isListing_length hr hp hj]
    exact hr.four k j hp hj hk
  obtain ⟨c', j', x, ht', hx, hwx⟩ := fillOpt_some h4 hw
  have hv : J (k, j') = x := by
    unfold listedOpt at hx
    by_cases h : label k j' ∈ L
    · rw [if_pos h] at hx
      injection hx with hx
      rw [hJ.listed k j' h, hx]
    · rw [if_neg h] at hx; cases hx
  rw [jval, hw, Option.getD_some, hwx, jmsTensor_tied hJ ht', hv]

/-- `JMS_to_Bern` in terms of full tensors. -/
theorem jmsToBern_tensor {E : WEnv} {P : PEnv} {scale : ℝ} {par : Option (Dict String ℝ)} (hp : penv E scale par = .ok P)
    (hP : Admissible P) (hL : JmsListing E.jms) {C : Dict String ℂ} {J : JSrc → ℂ} (hJ : JmsFull E.jms C J) :
    jmsToBern E C scale par = .ok (bval J (scaleBy (prefBernv P) (blkJmsBern P).flatten)) := by
  obtain ⟨Ca, h1, h2⟩ := jms_readable hL C
  unfold jmsToBern
  rw [hp, except_ok_bind, h1, except_ok_bind, jobsJmsBern_eq hP (v := J) fun s hs => by rw [h2 s hs, jmsTensor_eq hL hJ hs],
    updAll_ofPairs, except_ok_bind, prefBern_ok hP, except_ok_bind, Dict.ofPairs_of_nodup, bval_scaleBy]
  · rfl
  · apply WF_bval
    rw [bkeys_blkJmsBern hP]; exact keysJmsBern_nodup

section

variable {P : PEnv} (hP : Admissible P) (J : JSrc → ℂ)

include hP

theorem bat_block {b : Block JSrc} (hb : b ∈ blkJmsBern P) {k : String} (hk : k ∈ bkeys b) :
    bat J (blkJmsBern P).flatten k = bat J b k :=
  bat_flatten (by rw [bkeys_blkJmsBern hP]; exact keysJmsBern_nodup) hb hk J

/-- A class of operators that is obtained directly. -/
theorem bat_table {b : Block JSrc} (hb : b ∈ blkJmsBern P) (hn : (bkeys b).Nodup) :
    ∀ p ∈ b, bat J (blkJmsBern P).flatten p.1 = p.2.val J := by
  intro p hp
  rw [bat_block hP J hb (List.mem_map.2 ⟨p, hp, rfl⟩)]
  exact bat_mem hn (k := p.1) (e := p.2) hp J

/-- A class of operators that is obtained in two steps. -/
theorem bat_table2 {b : Block JSrc} {b' : Block String} (hb : comp b b' ∈ blkJmsBern P) (hn : (bkeys b).Nodup)
    (hn' : (bkeys b').Nodup) : ∃ F : String → ℂ, (∀ p ∈ b, F p.1 = p.2.val J) ∧
      ∀ p ∈ b', bat J (blkJmsBern P).flatten p.1 = p.2.val F := by
  refine ⟨bat J b, fun p hp => bat_mem hn (k := p.1) (e := p.2) hp J, fun p hp => ?_⟩
  rw [bat_block hP J hb (by rw [bkeys_comp]; exact List.mem_map.2 ⟨p, hp, rfl⟩), bat_comp]
  exact bat_mem hn' (k := p.1) (e := p.2) hp _

end

/-! ### Tables -/

/-- Suffix of the names of a sector. -/
def suf (f1 f2 f3 f4 : Kind × Fin 3) : String := qname f1 ++ (qname f2 ++ (qname f3 ++ qname f4))

theorem nodup_V10 (x : String) : (keysV10 x).Nodup := nodup_suffix (by decide +kernel) x

theorem nodup_V20 (x : String) : (keysV20 x).Nodup := nodup_suffix (by decide +kernel) x

theorem nodup_fierzDDUU (x : String) (f1 f2 f3 f4 : Fin 3) : (bkeys (fierzDDUU x f1 f2 f3 f4)).Nodup :=
  nodup_prefix (L := ["1", "2", "3", "4", "5", "6", "7", "8", "9", "10", "1p", "2p", "3p", "4p", "5p", "6p", "7p", "8p", "9p", "10p"])
    (by decide +kernel) ("F" ++ x)

theorem nodup_fierzDDDD (x : String) (f1 f2 f3 f4 : Fin 3) : (bkeys (fierzDDDD x f1 f2 f3 f4)).Nodup :=
  nodup_prefix (L := ["1", "2", "3", "4", "5", "6", "7", "8", "9", "10", "1p", "2p", "3p", "4p", "5p", "6p", "7p", "8p", "9p", "10p"])
    (by decide +kernel) ("F" ++ x)

theorem nodup_jmsFierzLep (x : String) (s b l lp : Fin 3) : (bkeys (jmsFierzLepTable x s b l lp)).Nodup :=
  nodup_prefix (L := ["9", "10", "S", "P", "T", "T5", "9p", "10p", "Sp", "Pp", "nu", "nup"])
    (by decide +kernel) ("F" ++ x)

section

variable {P : PEnv} (hP : Admissible P) (J : JSrc → ℂ)

include hP

theorem table_I : ∀ x ∈ ddPairs, ∀ p ∈ jmsBernIDown (qname (.d, x.1) ++ qname (.d, x.2)) [x.1, x.2] [x.2, x.1],
    bat J (blkJmsBern P).flatten p.1 = p.2.val J := by
  intro x hx
  have h : ∀ x ∈ ddPairs, qname (.d, x.1) ++ qname (.d, x.2) ∈ ["sb", "db", "ds"] ∧
      Dict.get dflav (chr (qname (.d, x.1) ++ qname (.d, x.2)) 0) = .ok x.1 ∧
      Dict.get dflav (chr (qname (.d, x.1) ++ qname (.d, x.2)) 1) = .ok x.2 := by decide +kernel
  obtain ⟨h1, h2, h3⟩ := h x hx
  have e : jmsBernI (qname (.d, x.1) ++ qname (.d, x.2)) =
      .ok (jmsBernIDown (qname (.d, x.1) ++ qname (.d, x.2)) [x.1, x.2] [x.2, x.1]) := by
    unfold jmsBernI; rw [if_pos h1, h2, h3]; rfl
  refine bat_table hP J ?_ ?_
  · have : okOr (jmsBernI (qname (.d, x.1) ++ qname (.d, x.2))) ∈ blkJmsBern P := by
      unfold blkJmsBern
      simp only [List.mem_append, List.mem_map]
      exact Or.inl (Or.inl (Or.inl (Or.inl ⟨_, h1, rfl⟩)))
    rw [e] at this; exact this
  · exact nodup_suffix (L := ["1", "2", "3", "4", "5", "1p", "2p", "3p"]) (by decide +kernel) _

theorem table_II : ∀ u ∈ [0, 1], ∀ d l n : Fin 3,
    ∀ p ∈ jmsBernIITable (suf (.u, u) (.d, d) (.e, l) (.nu, n)) u d l n, bat J (blkJmsBern P).flatten p.1 = p.2.val J := by
  intro u hu d l n
  have h : ∀ u ∈ [(0 : Fin 3), 1], ∀ d l n : Fin 3,
      let x := nameLep (qname (.u, u) ++ qname (.d, d)) (qname (.e, l), qname (.nu, n))
      x ∈ namesII ∧ indII x = suf (.u, u) (.d, d) (.e, l) (.nu, n) ∧ flavII x = .ok (u, d, l, n) := by decide +kernel
  obtain ⟨h1, h2, h3⟩ := h u hu d l n
  refine bat_table hP J ?_ ?_
  · have : okOr (jmsBernII (nameLep (qname (.u, u) ++ qname (.d, d)) (qname (.e, l), qname (.nu, n)))) ∈ blkJmsBern P := by
      unfold blkJmsBern
      simp only [List.mem_append, List.mem_map]
      exact Or.inl (Or.inl (Or.inl (Or.inr ⟨_, h1, rfl⟩)))
    unfold jmsBernII at this
    rw [h3, h2] at this; exact this
  · exact nodup_suffix (L := ["1", "5", "1p", "5p", "7p"]) (by decide +kernel) _

theorem table_lep : ∀ x ∈ ddPairs, ∀ l n : Fin 3, ∃ F : String → ℂ,
    (∀ p ∈ jmsFierzLepTable (suf (.d, x.1) (.d, x.2) (.e, l) (.e, n)) x.1 x.2 l n, F p.1 = p.2.val J) ∧
    ∀ p ∈ fierzBernLepTable (suf (.d, x.1) (.d, x.2) (.e, l) (.e, n)), bat J (blkJmsBern P).flatten p.1 = p.2.val F := by
  intro x hx l n
  have h : ∀ x ∈ ddPairs, ∀ l n : Fin 3,
      (qname (.e, l), qname (.e, n)) ∈ leptonPairs ∧ qname (.d, x.1) ++ qname (.d, x.2) ∈ ["sb", "db", "ds"] ∧
      let y := nameLep (qname (.d, x.1) ++ qname (.d, x.2)) (qname (.e, l), qname (.e, n))
      indLep y = suf (.d, x.1) (.d, x.2) (.e, l) (.e, n) ∧ Dict.get dflav (chr y 0) = .ok x.1 ∧
      Dict.get dflav (chr y 1) = .ok x.2 ∧ Dict.get lflav (lepPart y) = .ok l ∧ Dict.get lflav (nuPart y) = .ok n := by
    decide +kernel
  obtain ⟨h1, h2, h3, h4, h5, h6, h7⟩ := h x hx l n
  refine bat_table2 hP J ?_ (nodup_jmsFierzLep _ _ _ _ _) (nodup_fierzBernLep _)
  generalize hy : nameLep (qname (.d, x.1) ++ qname (.d, x.2)) (qname (.e, l), qname (.e, n)) = y at *
  have : comp (okOr (jmsFierzLep y)) (okOr (fierzBernLep y)) ∈ blkJmsBern P := by
    unfold blkJmsBern
    simp only [List.mem_append, List.mem_flatMap]
    refine Or.inl (Or.inr ⟨_, h1, ?_⟩)
    rw [← hy]
    simp only [List.mem_cons, List.not_mem_nil, or_false] at h2 ⊢
    rcases h2 with h2 | h2 | h2 <;> rw [h2] <;> simp
  unfold jmsFierzLep fierzBernLep at this
  rw [h3, h4, h5, h6, h7] at this
  exact this

theorem table_V {x : String} (hx : x ∈ namesV) {b : Block JSrc} {b' : Block String} (hb : jmsFierzV x = .ok b)
    (hb' : fierzBernV x = .ok b') (hn : (bkeys b).Nodup) (hn' : (bkeys b').Nodup) : ∃ F : String → ℂ, (∀ p ∈ b, F p.1 = p.2.val J) ∧
      ∀ p ∈ b', bat J (blkJmsBern P).flatten p.1 = p.2.val F := by
  refine bat_table2 hP J ?_ hn hn'
  have : comp (okOr (jmsFierzV x)) (okOr (fierzBernV x)) ∈ blkJmsBern P := by
    unfold blkJmsBern
    simp only [List.mem_append, List.mem_map]
    exact Or.inl (Or.inl (Or.inr ⟨_, hx, rfl⟩))
  rw [hb, hb'] at this
  exact this

theorem table_u : ∀ x ∈ ddPairs, ∀ u ∈ [0, 1], ∀ v ∈ [0, 1], ∃ F : String → ℂ,
    (∀ p ∈ fierzDDUU (suf (.d, x.1) (.d, x.2) (.u, u) (.u, v)) x.1 x.2 u v, F p.1 = p.2.val J) ∧
    ∀ p ∈ fierzBernGen (suf (.d, x.1) (.d, x.2) (.u, u) (.u, v)), bat J (blkJmsBern P).flatten p.1 = p.2.val F := by
  intro x hx u hu v hv
  have h : ∀ x ∈ ddPairs, ∀ u ∈ [(0 : Fin 3), 1], ∀ v ∈ [(0 : Fin 3), 1],
      let y := suf (.d, x.1) (.d, x.2) (.u, u) (.u, v)
      y ∈ namesV ∧ flav4 dflav uflav y = .ok (x.1, x.2, u, v) ∧
      y ∈ ["sbuc", "sbcu", "dbuc", "dbcu", "dsuc", "dscu", "sbuu", "dbuu", "dsuu", "sbcc", "dbcc", "dscc"] ∧
      y ∉ ["sbss", "dbdd", "dbds", "sbsd", "bsbd", "dsdd"] ∧ y ∉ ["dbbb", "sbbb", "dsss"] ∧
      y ∈ ["sbuu", "sbdd", "sbuu", "sbuc", "sbcu", "sbcc", "dbuu", "dbss", "dbuu", "dbuc", "dbcu", "dbcc",
        "dsuu", "dsbb", "dsuu", "dsuc", "dscu", "dscc"] := by decide +kernel
  obtain ⟨h1, h2, h3, h4, h5, h6⟩ := h x hx u hu v hv
  generalize suf (.d, x.1) (.d, x.2) (.u, u) (.u, v) = y at *
  refine table_V hP J h1 ?_ ?_ (nodup_fierzDDUU _ _ _ _ _) (nodup_V20 y)
  · unfold jmsFierzV; rw [if_pos h3, h2]; rfl
  · unfold fierzBernV; rw [if_neg h4, if_neg h5, if_pos h6]

/-- Flavours of the sectors with four down quarks. -/
def dddGen : List (Fin 3 × Fin 3 × Fin 3 × Fin 3) := [(1, 2, 0, 0), (0, 2, 1, 1), (0, 1, 2, 2)]

def ddd22 : List (Fin 3 × Fin 3 × Fin 3 × Fin 3) := [(1, 2, 2, 2), (0, 2, 2, 2), (0, 1, 1, 1)]

def ddd24 : List (Fin 3 × Fin 3 × Fin 3 × Fin 3) := [(1, 2, 1, 1), (0, 2, 0, 0), (0, 1, 0, 0), (1, 2, 1, 0), (0, 2, 0, 1)]

/-- Suffix of a sector with four down quarks. -/
def sufd (x : Fin 3 × Fin 3 × Fin 3 × Fin 3) : String := suf (.d, x.1) (.d, x.2.1) (.d, x.2.2.1) (.d, x.2.2.2)

omit hP in
theorem jmsFierzV_ddd : ∀ x ∈ dddGen ++ ddd22 ++ ddd24, sufd x ∈ namesV ∧
    jmsFierzV (sufd x) = .ok (fierzDDDD (sufd x) x.1 x.2.1 x.2.2.1 x.2.2.2) := by
  intro x hx
  have h : ∀ x ∈ dddGen ++ ddd22 ++ ddd24, sufd x ∈ namesV ∧ flav4 dflav dflav (sufd x) = .ok x ∧
      sufd x ∉ ["sbuc", "sbcu", "dbuc", "dbcu", "dsuc", "dscu", "sbuu", "dbuu", "dsuu", "sbcc", "dbcc", "dscc"] ∧
      sufd x ∈ ["sbsd", "dbds", "bsbd", "sbss", "dbdd", "dsdd", "sbbb", "dbbb", "dsss", "sbdd", "dsbb", "dbss"] := by
    decide +kernel
  obtain ⟨h1, h2, h3, h4⟩ := h x hx
  generalize sufd x = y at *
  refine ⟨h1, ?_⟩
  unfold jmsFierzV; rw [if_neg h3, if_pos h4, h2]; rfl

theorem table_dGen : ∀ x ∈ dddGen, ∃ F : String → ℂ,
    (∀ p ∈ fierzDDDD (sufd x) x.1 x.2.1 x.2.2.1 x.2.2.2, F p.1 = p.2.val J) ∧
    ∀ p ∈ fierzBernGen (sufd x), bat J (blkJmsBern P).flatten p.1 = p.2.val F := by
  intro x hx
  obtain ⟨h1, h2⟩ := jmsFierzV_ddd x (by simp only [List.mem_append]; exact Or.inl (Or.inl hx))
  have h : ∀ x ∈ dddGen, sufd x ∉ ["sbss", "dbdd", "dbds", "sbsd", "bsbd", "dsdd"] ∧ sufd x ∉ ["dbbb", "sbbb", "dsss"] ∧
      sufd x ∈ ["sbuu", "sbdd", "sbuu", "sbuc", "sbcu", "sbcc", "dbuu", "dbss", "dbuu", "dbuc", "dbcu", "dbcc",
        "dsuu", "dsbb", "dsuu", "dsuc", "dscu", "dscc"] := by decide +kernel
  obtain ⟨h4, h5, h6⟩ := h x hx
  refine table_V hP J h1 h2 ?_ (nodup_fierzDDDD _ _ _ _ _) (nodup_V20 _)
  unfold fierzBernV; rw [if_neg h4, if_neg h5, if_pos h6]

theorem table_d22 : ∀ x ∈ ddd22, ∃ F : String → ℂ,
    (∀ p ∈ fierzDDDD (sufd x) x.1 x.2.1 x.2.2.1 x.2.2.2, F p.1 = p.2.val J) ∧
    ∀ p ∈ fierzBern22 (sufd x), bat J (blkJmsBern P).flatten p.1 = p.2.val F := by
  intro x hx
  obtain ⟨h1, h2⟩ := jmsFierzV_ddd x (by simp only [List.mem_append]; exact Or.inl (Or.inr hx))
  have h : ∀ x ∈ ddd22, sufd x ∉ ["sbss", "dbdd", "dbds", "sbsd", "bsbd", "dsdd"] ∧ sufd x ∈ ["dbbb", "sbbb", "dsss"] := by
    decide +kernel
  obtain ⟨h4, h5⟩ := h x hx
  refine table_V hP J h1 h2 ?_ (nodup_fierzDDDD _ _ _ _ _) (nodup_V10 _)
  unfold fierzBernV; rw [if_neg h4, if_pos h5]

theorem table_d24 : ∀ x ∈ ddd24, ∃ F : String → ℂ,
    (∀ p ∈ fierzDDDD (sufd x) x.1 x.2.1 x.2.2.1 x.2.2.2, F p.1 = p.2.val J) ∧
    ∀ p ∈ fierzBern24 (sufd x), bat J (blkJmsBern P).flatten p.1 = p.2.val F := by
  intro x hx
  obtain ⟨h1, h2⟩ := jmsFierzV_ddd x (by simp only [List.mem_append]; exact Or.inr hx)
  have h : ∀ x ∈ ddd24, sufd x ∈ ["sbss", "dbdd", "dbds", "sbsd", "bsbd", "dsdd"] := by decide +kernel
  refine table_V hP J h1 h2 ?_ (nodup_fierzDDDD _ _ _ _ _) (nodup_V10 _)
  unfold fierzBernV; rw [if_pos (h x hx)]

theorem table_chrom : ∀ x ∈ ddPairs, ∃ F : String → ℂ,
    (∀ p ∈ jmsFierzChromTable (qname (.d, x.1) ++ qname (.d, x.2)) x.1 x.2, F p.1 = p.2.val J) ∧
    ∀ p ∈ fierzBernChromTable (qname (.d, x.1) ++ qname (.d, x.2)) (kgv P) (kgsv P), bat J (blkJmsBern P).flatten p.1 = p.2.val F := by
  intro x hx
  have h : ∀ x ∈ ddPairs, qname (.d, x.1) ++ qname (.d, x.2) ∈ ["sb", "db", "ds"] ∧
      Dict.get dflav (chr (qname (.d, x.1) ++ qname (.d, x.2)) 0) = .ok x.1 ∧
      Dict.get dflav (chr (qname (.d, x.1) ++ qname (.d, x.2)) 1) = .ok x.2 := by decide +kernel
  obtain ⟨h1, h2, h3⟩ := h x hx
  have e : jmsFierzChrom (qname (.d, x.1) ++ qname (.d, x.2)) = .ok (jmsFierzChromTable (qname (.d, x.1) ++ qname (.d, x.2)) x.1 x.2) := by
    unfold jmsFierzChrom; rw [h2, h3]; rfl
  refine bat_table2 hP J ?_ (nodup_suffix (L := ["F7gamma", "F8g", "F7pgamma", "F8pg"]) (by decide +kernel) _)
    (nodup_suffix (L := ["7gamma", "8g", "7pgamma", "8pg"]) (by decide +kernel) _)
  have : comp (okOr (jmsFierzChrom (qname (.d, x.1) ++ qname (.d, x.2)))) (okOr (fierzBernChrom P (qname (.d, x.1) ++ qname (.d, x.2))))
      ∈ blkJmsBern P := by
    unfold blkJmsBern
    refine List.mem_append_right _ ?_
    generalize qname (.d, x.1) ++ qname (.d, x.2) = y at h1
    simp only [List.mem_cons, List.not_mem_nil, or_false] at h1
    rcases h1 with rfl | rfl | rfl <;> simp
  rw [e, fierzBernChrom_eq hP] at this
  exact this

end

end Verif
