import Verif.Spec.EosTable
import Verif.Model.EosData
import Verif.Props.EosBack
import Verif.Props.Targets
import Verif.Props.Cli

/-! C96: from JMS coefficients to EOS parameters, with the tables of the package. -/

set_option autoImplicit false

namespace Verif

open Spec

variable {d d' : Dict String ℂ} {sm : Dict String JVal} {out : Dict String (Dict String ℝ)}

/-! ### The tables -/

theorem eosRelevant_doc (rows : List EosRow) :
    eosRelevant (eosFileDoc rows) = .ok (some (rows.map EosRow.entry)) := by
  simp only [eosRelevant, eosFileDoc, Dict.find_cons, if_true, truthy, Dict.del]

theorem eosBtos_names : "@metadata@" ∉ eosBtos.map Prod.fst ∧ ∀ n ∈ eosBtos.map Prod.fst, n ∈ eosParams := by decide +kernel
theorem eosBtou_names : "@metadata@" ∉ eosBtou.map Prod.fst ∧ ∀ n ∈ eosBtou.map Prod.fst, n ∈ eosParams := by decide +kernel
theorem eosParams_names : eosParams.Nodup ∧ ∀ n ∈ eosParams, n ∈ eosBtos.map Prod.fst ∨ n ∈ eosBtou.map Prod.fst := by decide +kernel

theorem keys_entries (rows : List EosRow) : Dict.keys (rows.map EosRow.entry) = rows.map Prod.fst := by
  simp [Dict.keys, EosRow.entry, Function.comp_def]

theorem central_entry (r : EosRow) : Central r.entry.2 r.2.1 := ⟨_, rfl, .inl rfl⟩

/-- The parameters of a table. -/
structure Spec.IsEosTable (sm : Dict String JVal) : Prop where
  names : (Dict.keys sm).Perm eosParams
  central : ∀ k v, (k, v) ∈ sm → ∃ c, Central v c

/-- A file in the directory of EOS that is not marked as relevant. -/
def Spec.OtherFile (f : JVal) : Prop := ∃ d, f = .obj d ∧ MetaOk d ∧ ¬ Relevant d

/-- The files of a directory with the two tables and files that are not marked as relevant, in any order. -/
def Spec.EosDir (files : List JVal) : Prop :=
  ∃ others, (∀ f ∈ others, OtherFile f) ∧ files.Perm (others ++ [eosFileDoc eosBtos, eosFileDoc eosBtou])

theorem eosRelevant_other {f : JVal} (h : OtherFile f) : eosRelevant f = .ok none := by
  obtain ⟨d, rfl, hm, hr⟩ := h
  have : ∃ o, eosRelevant (.obj d) = .ok o := by
    unfold eosRelevant
    rcases hm with hm | ⟨m, hm⟩
    · simp [hm]
    · simp only [hm]
      cases Dict.find m "wcxf-relevant" with
      | none => simp
      | some r => dsimp only; split <;> simp
  obtain ⟨o, ho⟩ := this
  obtain ⟨d', e, ⟨_, _, h, _⟩ | ⟨rfl, _⟩⟩ := eosRelevant_ok ho
  · rw [JVal.obj.injEq] at e
    exact absurd (e ▸ h) hr
  · exact ho

open Classical in
theorem getSmWcs_filter (files : List JVal) :
    getSmWcs files = getSmWcs (files.filter fun f => decide (eosRelevant f ≠ .ok none)) := by
  unfold getSmWcs
  generalize ([] : Dict String JVal) = acc
  induction files generalizing acc with
  | nil => rfl
  | cons f fs ih =>
    by_cases h : eosRelevant f = .ok none
    · rw [List.filter_cons_of_neg (by simp [h]), List.foldlM_cons, h]
      exact ih acc
    · rw [List.filter_cons_of_pos (by simpa using h), List.foldlM_cons, List.foldlM_cons]
      congr 1
      funext a
      exact ih a

theorem eosRows_nodup : ((eosBtos ++ eosBtou).map Prod.fst).Nodup := by decide +kernel

/-- **C96, tables.** The tables of the package, read in any order and among files that are not marked
as relevant, give all parameters, each with a number as central value: the
one in its row. -/
theorem C96_table (files : List JVal) (h : EosDir files) :
    ∃ t, getSmWcs files = .ok t ∧ IsEosTable t ∧
      ∀ r ∈ eosBtos ++ eosBtou, ∃ v, Dict.find t r.1 = some v ∧ Central v r.2.1 := by
  have main : ∀ r1 r2 : List EosRow, "@metadata@" ∉ r1.map Prod.fst → "@metadata@" ∉ r2.map Prod.fst →
      (∀ n ∈ r1.map Prod.fst, n ∈ eosParams) → (∀ n ∈ r2.map Prod.fst, n ∈ eosParams) →
      (∀ n ∈ eosParams, n ∈ r1.map Prod.fst ∨ n ∈ r2.map Prod.fst) →
      ((r1 ++ r2).map Prod.fst).Nodup →
      ∃ t, getSmWcs [eosFileDoc r1, eosFileDoc r2] = .ok t ∧ IsEosTable t ∧
        ∀ r ∈ r1 ++ r2, ∃ v, Dict.find t r.1 = some v ∧ Central v r.2.1 := by
    intro r1 r2 m1 m2 h1 h2 h3 hnd
    have rows : ∀ k v, (k, v) ∈ Dict.upd (Dict.upd [] (r1.map EosRow.entry)) (r2.map EosRow.entry) →
        ∃ r ∈ r1 ++ r2, r.entry = (k, v) := by
      intro k v hkv
      have : (k, v) ∈ r1.map EosRow.entry ++ r2.map EosRow.entry := by
        apply mem_ofPairs
        unfold Dict.ofPairs
        rw [Dict.upd_append]
        exact hkv
      rw [← List.map_append] at this
      exact List.mem_map.1 this
    refine ⟨Dict.upd (Dict.upd [] (r1.map EosRow.entry)) (r2.map EosRow.entry), ?_, ⟨?_, ?_⟩, ?_⟩
    · simp only [getSmWcs, List.foldlM_cons, List.foldlM_nil, eosRelevant_doc, bind, Except.bind, pure,
        Except.pure]
    · refine (List.perm_ext_iff_of_nodup (Dict.WF_upd (Dict.WF_upd (d := []) (by simp [Dict.WF, Dict.keys]) _) _) eosParams_names.1).2 fun n => ?_
      rw [Dict.mem_keys_upd, Dict.mem_keys_upd, keys_entries, keys_entries]
      refine ⟨?_, fun hn => ?_⟩
      · rintro ((hn | hn) | hn)
        · cases hn
        · exact h1 n hn
        · exact h2 n hn
      · rcases h3 n hn with hn | hn
        · exact .inl (.inr hn)
        · exact .inr hn
    · intro k v hkv
      obtain ⟨r, -, e⟩ := rows k v hkv
      have := central_entry r
      rw [e] at this
      exact ⟨_, this⟩
    · intro r hr
      have hk : r.1 ∈ Dict.keys (Dict.upd (Dict.upd [] (r1.map EosRow.entry)) (r2.map EosRow.entry)) := by
        rw [Dict.mem_keys_upd, Dict.mem_keys_upd, keys_entries, keys_entries]
        rcases List.mem_append.1 hr with h | h
        · exact .inl (.inr (List.mem_map_of_mem h))
        · exact .inr (List.mem_map_of_mem h)
      cases hf : Dict.find (Dict.upd (Dict.upd [] (r1.map EosRow.entry)) (r2.map EosRow.entry)) r.1 with
      | none => exact absurd hk (Dict.find_eq_none_iff.1 hf)
      | some v =>
        obtain ⟨r', hr', e⟩ := rows _ _ (Dict.mem_of_find hf)
        obtain rfl : r' = r := List.inj_on_of_nodup_map hnd hr' hr (show r'.1 = r.1 from (Prod.mk.inj e).1)
        have := central_entry r'
        rw [e] at this
        exact ⟨v, rfl, this⟩
  obtain ⟨others, ho, hp⟩ := h
  classical
  rw [getSmWcs_filter]
  have h : (files.filter fun f => decide (eosRelevant f ≠ .ok none)).Perm [eosFileDoc eosBtos, eosFileDoc eosBtou] := by
    refine (hp.filter _).trans ?_
    rw [List.filter_append, List.filter_eq_nil_iff.2 fun f hf => by simp [eosRelevant_other (ho f hf)], List.nil_append,
      List.filter_eq_self.2 ?_]
    intro f hf
    simp only [List.mem_cons, List.not_mem_nil, or_false] at hf
    rcases hf with rfl | rfl <;> simp [eosRelevant_doc]
  generalize (files.filter fun f => decide (eosRelevant f ≠ .ok none)) = files at h ⊢
  have cases2 : ∀ a b : JVal, files.Perm [a, b] → files = [a, b] ∨ files = [b, a] := by
    intro a b hp
    have hl := hp.length_eq
    match files, hl with
    | [x, y], _ =>
      have hx : x ∈ [a, b] := hp.mem_iff.1 (by simp)
      simp only [List.mem_cons, List.not_mem_nil, or_false] at hx
      rcases hx with rfl | rfl
      · have := List.perm_singleton.1 ((List.perm_cons _).1 hp)
        exact .inl (by rw [this])
      · have := List.perm_singleton.1 ((List.perm_cons _).1 (hp.trans (List.Perm.swap _ _ _)))
        exact .inr (by rw [this])
  rcases cases2 _ _ h with rfl | rfl
  · exact main _ _ eosBtos_names.1 eosBtou_names.1 eosBtos_names.2 eosBtou_names.2 eosParams_names.2 eosRows_nodup
  · obtain ⟨t, h1, h2, h3⟩ := main _ _ eosBtou_names.1 eosBtos_names.1 eosBtou_names.2 eosBtos_names.2
      (fun n hn => (eosParams_names.2 n hn).symm) ((List.perm_append_comm.map _).nodup_iff.1 eosRows_nodup)
    exact ⟨t, h1, h2, fun r hr => h3 r (List.perm_append_comm.mem_iff.1 hr)⟩

/-! ### The parameters -/

theorem find_none_of {l : List String} (hd : ∀ n ∈ Dict.keys d, n ∈ l) {k : String} (hk : k ∉ l) : Dict.find d k = none :=
  Dict.find_eq_none_iff.2 fun h => hk (hd k h)

theorem eosReal_plain : ∀ n ∈ eosReal, contains "Re{" n = false ∧ contains "Im{" n = false ∧ n ∈ eosTargets := by decide +kernel

theorem eosComplex_parts : ∀ p ∈ eosComplex,
    (p.1 ++ "Re{" ++ p.2 ++ "}" ∉ eosTargets ∧ contains "Re{" (p.1 ++ "Re{" ++ p.2 ++ "}") = true ∧
      p.1 ++ p.2 = reSub "Re{" (p.1 ++ "Re{" ++ p.2 ++ "}")) ∧
    (p.1 ++ "Im{" ++ p.2 ++ "}" ∉ eosTargets ∧ contains "Re{" (p.1 ++ "Im{" ++ p.2 ++ "}") = false ∧
      contains "Im{" (p.1 ++ "Im{" ++ p.2 ++ "}") = true ∧ p.1 ++ p.2 = reSub "Im{" (p.1 ++ "Im{" ++ p.2 ++ "}")) ∧
    p.1 ++ p.2 = pyReplace "lnu" "enue" (p.1 ++ p.2) ∧ p.1 ++ p.2 = pyReplace "lnu" "munumu" (p.1 ++ p.2) := by decide +kernel

theorem eosCharged_parts : ∀ c ∈ eosCharged,
    ("b->ulnu::Re{" ++ c ++ "}" ∉ eosTargets ∧ contains "Re{" ("b->ulnu::Re{" ++ c ++ "}") = true ∧
      "b->ulnu::" ++ c = reSub "Re{" ("b->ulnu::Re{" ++ c ++ "}")) ∧
    ("b->ulnu::Im{" ++ c ++ "}" ∉ eosTargets ∧ contains "Re{" ("b->ulnu::Im{" ++ c ++ "}") = false ∧
      contains "Im{" ("b->ulnu::Im{" ++ c ++ "}") = true ∧ "b->ulnu::" ++ c = reSub "Im{" ("b->ulnu::Im{" ++ c ++ "}")) ∧
    "b->ulnu::" ++ c ∉ eosTargets ∧ "b->uenue::" ++ c = pyReplace "lnu" "enue" ("b->ulnu::" ++ c) ∧
    "b->umunumu::" ++ c = pyReplace "lnu" "munumu" ("b->ulnu::" ++ c) ∧ "b->ulnu::Re{" ++ c ++ "}" ∈ eosParams := by decide +kernel

theorem noPart_of {tag t k : String} (ht : t.toList = tag.toList ++ ['{']) (h : contains t k = false) : NoPart tag k := by
  intro hp
  rw [← ht, ← contains_iff, h] at hp
  cases hp

theorem partOf_of {tag t k n : String} (ht : t.toList = tag.toList ++ ['{']) (h : contains t k = true) (e : n = reSub t k) :
    PartOf tag k n := by
  have : (tag.toList ++ ['{']) <:+: k.toList := by rw [← ht, ← contains_iff]; exact h
  exact (partOf_iff this t ht).2 e

theorem contribution_self (part : ℂ → ℝ) {n : String} (he : Lepton "enue" n n) (hm : Lepton "munumu" n n) :
    Contribution d part n (part (coeff d n)) := by
  cases h : Dict.find d n with
  | some z =>
    have : coeff d n = z := by rw [coeff, h]; rfl
    rw [this]; exact .own z h
  | none => exact .universal n n h he hm rfl

/-- The contributions that the converter takes are the ones specified. -/
theorem np_of_value (hd : ∀ n ∈ Dict.keys d, n ∈ eosTargets) {k : String} {x : ℝ} (h : EosValue d k x)
    (hu : Universal d ∨ k ∈ eosReal ∨ ∃ p ∈ eosComplex, k = p.1 ++ "Re{" ++ p.2 ++ "}" ∨ k = p.1 ++ "Im{" ++ p.2 ++ "}") : NP d k x := by
  have charged : ∀ c ∈ eosCharged, ∀ k, k = "b->ulnu::Re{" ++ c ++ "}" ∨ k = "b->ulnu::Im{" ++ c ++ "}" →
      ¬ (k ∈ eosReal ∨ ∃ p ∈ eosComplex, k = p.1 ++ "Re{" ++ p.2 ++ "}" ∨ k = p.1 ++ "Im{" ++ p.2 ++ "}") := by
    have h1 : ∀ c ∈ eosCharged, ("b->ulnu::Re{" ++ c ++ "}" ∉ eosReal ∧ "b->ulnu::Im{" ++ c ++ "}" ∉ eosReal) ∧ ∀ p ∈ eosComplex,
        "b->ulnu::Re{" ++ c ++ "}" ≠ p.1 ++ "Re{" ++ p.2 ++ "}" ∧ "b->ulnu::Re{" ++ c ++ "}" ≠ p.1 ++ "Im{" ++ p.2 ++ "}" ∧
        "b->ulnu::Im{" ++ c ++ "}" ≠ p.1 ++ "Re{" ++ p.2 ++ "}" ∧ "b->ulnu::Im{" ++ c ++ "}" ≠ p.1 ++ "Im{" ++ p.2 ++ "}" := by
      decide +kernel
    rintro c hc k (rfl | rfl) (h | ⟨p, hp, h | h⟩)
    · exact (h1 c hc).1.1 h
    · exact ((h1 c hc).2 p hp).1 h
    · exact ((h1 c hc).2 p hp).2.1 h
    · exact (h1 c hc).1.2 h
    · exact ((h1 c hc).2 p hp).2.2.1 h
    · exact ((h1 c hc).2 p hp).2.2.2 h
  have uni : ∀ c ∈ eosCharged, Universal d → ∀ part : ℂ → ℝ,
      Contribution d part ("b->ulnu::" ++ c) (part (coeff d ("b->uenue::" ++ c))) := fun c hc hu part => by
    obtain ⟨-, -, h1, h2, h3, -⟩ := eosCharged_parts c hc
    exact .universal _ _ (find_none_of hd h1) (lepton_iff.2 h2) (lepton_iff.2 h3) (hu c hc)
  cases h with
  | real _ hn =>
    obtain ⟨h1, h2, -⟩ := eosReal_plain k hn
    cases h : Dict.find d k with
    | some z =>
      have : coeff d k = z := by rw [coeff, h]; rfl
      rw [this]; exact .direct z h
    | none =>
      have : coeff d k = 0 := by rw [coeff, h]; rfl
      rw [this, Complex.zero_re]
      exact .none h (noPart_of (t := "Re{") rfl h1) (noPart_of (t := "Im{") rfl h2)
  | re p hp =>
    obtain ⟨⟨h1, h2, h3⟩, -, h4, h5⟩ := eosComplex_parts p hp
    exact .re _ _ (find_none_of hd h1) (partOf_of (t := "Re{") rfl h2 h3) (contribution_self _ (lepton_iff.2 h4) (lepton_iff.2 h5))
  | im p hp =>
    obtain ⟨-, ⟨h1, h0, h2, h3⟩, h4, h5⟩ := eosComplex_parts p hp
    exact .im _ _ (find_none_of hd h1) (noPart_of (t := "Re{") rfl h0) (partOf_of (t := "Im{") rfl h2 h3)
      (contribution_self _ (lepton_iff.2 h4) (lepton_iff.2 h5))
  | chargedRe c hc =>
    obtain ⟨⟨h1, h2, h3⟩, -⟩ := eosCharged_parts c hc
    exact .re _ _ (find_none_of hd h1) (partOf_of (t := "Re{") rfl h2 h3)
      (uni c hc (hu.resolve_right (charged c hc _ (.inl rfl))) _)
  | chargedIm c hc =>
    obtain ⟨-, ⟨h1, h0, h2, h3⟩, -⟩ := eosCharged_parts c hc
    exact .im _ _ (find_none_of hd h1) (noPart_of (t := "Re{") rfl h0) (partOf_of (t := "Im{") rfl h2 h3)
      (uni c hc (hu.resolve_right (charged c hc _ (.inr rfl))) _)

theorem value_exists (d : Dict String ℂ) {k : String} (hk : k ∈ eosParams) : (∃ x, EosValue d k x) ∧
    ((k ∈ eosReal ∨ ∃ p ∈ eosComplex, k = p.1 ++ "Re{" ++ p.2 ++ "}" ∨ k = p.1 ++ "Im{" ++ p.2 ++ "}") ∨
      ∃ c ∈ eosCharged, k = "b->ulnu::Re{" ++ c ++ "}" ∨ k = "b->ulnu::Im{" ++ c ++ "}") := by
  unfold eosParams at hk
  simp only [List.mem_append, List.mem_flatMap, List.mem_cons, List.not_mem_nil, or_false] at hk
  rcases hk with (hk | ⟨p, hp, rfl | rfl⟩) | ⟨c, hc, rfl | rfl⟩
  · exact ⟨⟨_, .real k hk⟩, .inl (.inl hk)⟩
  · exact ⟨⟨_, .re p hp⟩, .inl (.inr ⟨p, hp, .inl rfl⟩)⟩
  · exact ⟨⟨_, .im p hp⟩, .inl (.inr ⟨p, hp, .inr rfl⟩)⟩
  · exact ⟨⟨_, .chargedRe c hc⟩, .inr ⟨c, hc, .inl rfl⟩⟩
  · exact ⟨⟨_, .chargedIm c hc⟩, .inr ⟨c, hc, .inr rfl⟩⟩

/-- **C96, export.** For coefficients of the EOS basis and a table with all parameters, the conversion fails exactly if the
charged currents of electrons and muons differ. Otherwise every parameter is the sum of the value in the table and the
contribution specified. -/
theorem C96_export (hd : ∀ n ∈ Dict.keys d, n ∈ eosTargets) (hs : IsEosTable sm) :
    ((∃ e, wcxf2eos d sm = .error e) ↔ ¬ Universal d) ∧
    ∀ out, wcxf2eos d sm = .ok out → (Dict.keys out).Perm eosParams ∧
      ∀ k x, EosValue d k x → ∃ v c, Dict.find sm k = some v ∧ Central v c ∧
        Dict.find out k = some [("central", c + x), ("min", c + x), ("max", c + x)] := by
  have herr : (∃ e, wcxf2eos d sm = .error e) ↔ ¬ Universal d := by
    rw [C21_table d sm hs.central]
    constructor
    · rintro ⟨k, v, hkv, hno⟩ hu
      obtain ⟨⟨x, hx⟩, -⟩ := value_exists d (hs.names.mem_iff.1 (List.mem_map_of_mem (f := Prod.fst) hkv))
      exact hno ⟨x, np_of_value hd hx (.inl hu)⟩
    · intro hu
      unfold Universal at hu
      push Not at hu
      obtain ⟨c, hc, hne⟩ := hu
      obtain ⟨⟨h1, h2, h3⟩, -, h4, h5, h6, h7⟩ := eosCharged_parts c hc
      obtain ⟨⟨k, v⟩, hkv, e⟩ := List.mem_map.1 (hs.names.mem_iff.2 h7)
      dsimp only at e
      subst e
      refine ⟨_, v, hkv, ?_⟩
      rintro ⟨x, hx⟩
      obtain ⟨e, he⟩ := (C21_non_universal d _ _ _ _ "Re" Complex.re (.inl ⟨rfl, rfl⟩) (find_none_of hd h1)
        (partOf_of (t := "Re{") rfl h2 h3) (lepton_iff.2 h5) (lepton_iff.2 h6) (find_none_of hd h4)).1.2 hne
      rw [(getEosNp_ok _ _ _).2 hx] at he
      cases he
  refine ⟨herr, fun out ho => ?_⟩
  have hkeys := C20_keys d sm out ho
  have hu : Universal d := by
    by_contra hu
    obtain ⟨e, he⟩ := herr.2 hu
    rw [ho] at he; cases he
  refine ⟨by rw [hkeys]; exact hs.names, fun k x hx => ?_⟩
  have hk : k ∈ Dict.keys sm := by
    rw [hs.names.mem_iff]
    unfold eosParams
    simp only [List.mem_append, List.mem_flatMap, List.mem_cons, List.not_mem_nil, or_false]
    cases hx with
    | real _ h => exact .inl (.inl h)
    | re p hp => exact .inl (.inr ⟨p, hp, .inl rfl⟩)
    | im p hp => exact .inl (.inr ⟨p, hp, .inr rfl⟩)
    | chargedRe c hc => exact .inr ⟨c, hc, .inl rfl⟩
    | chargedIm c hc => exact .inr ⟨c, hc, .inr rfl⟩
  have hnp := np_of_value hd hx (.inl hu)
  have F := (C20_sm_plus_np d sm out).1 ho
  clear ho hkeys hs herr
  induction F with
  | nil => cases hk
  | @cons p q sm out hpq F ih =>
    obtain ⟨e, c, y, h1, h2, h3⟩ := hpq
    rw [Dict.find_cons, Dict.find_cons, e]
    by_cases hpk : p.1 = k
    · rw [if_pos hpk, if_pos hpk]
      subst hpk
      have : y = x := Except.ok.inj (((getEosNp_ok _ _ _).2 h2).symm.trans ((getEosNp_ok _ _ _).2 hnp))
      subst this
      exact ⟨p.2, c, rfl, h1, by rw [h3]⟩
    · rw [if_neg hpk, if_neg hpk]
      exact ih ((List.mem_cons.1 hk).resolve_left fun e => hpk e.symm)

theorem eosTargets_cases : ∀ n ∈ eosTargets, n ∈ eosReal ∨ n ∈ eosComplex.map (fun p => p.1 ++ p.2) ∨
    n ∈ eosCharged.map (fun c => "b->uenue::" ++ c) ∨ n ∈ eosCharged.map (fun c => "b->umunumu::" ++ c) := by decide +kernel

/-- **C96, what the parameters determine.** Two sets of coefficients of the EOS basis that give the same parameters agree, except
for the imaginary parts of the eight coefficients that have only a real parameter. -/
theorem C96_determines (hd : ∀ n ∈ Dict.keys d, n ∈ eosTargets) (hd' : ∀ n ∈ Dict.keys d', n ∈ eosTargets) (hs : IsEosTable sm)
    (h : wcxf2eos d sm = .ok out) (h' : wcxf2eos d' sm = .ok out) :
    (∀ n, n ∉ eosReal → coeff d n = coeff d' n) ∧ ∀ n ∈ eosReal, (coeff d n).re = (coeff d' n).re := by
  have uni : ∀ {D : Dict String ℂ}, (∀ n ∈ Dict.keys D, n ∈ eosTargets) → wcxf2eos D sm = .ok out → Universal D := by
    intro D hD h
    by_contra hu
    obtain ⟨e, he⟩ := (C96_export hD hs).1.2 hu
    rw [h] at he; cases he
  have same : ∀ {k x x'}, EosValue d k x → EosValue d' k x' → x = x' := by
    intro k x x' hx hx'
    obtain ⟨v, c, h1, h2, h3⟩ := ((C96_export hd hs).2 out h).2 k x hx
    obtain ⟨v', c', h1', h2', h3'⟩ := ((C96_export hd' hs).2 out h').2 k x' hx'
    obtain rfl : v = v' := Option.some.inj (h1.symm.trans h1')
    obtain rfl := central_unique h2 h2'
    rw [h3] at h3'
    simpa using h3'
  have hre : ∀ n ∈ eosReal, (coeff d n).re = (coeff d' n).re := fun n hn => same (.real n hn) (.real n hn)
  have hu := uni hd h
  have hu' := uni hd' h'
  have hch : ∀ c ∈ eosCharged, coeff d ("b->uenue::" ++ c) = coeff d' ("b->uenue::" ++ c) := fun c hc =>
    Complex.ext (same (.chargedRe c hc) (.chargedRe c hc)) (same (.chargedIm c hc) (.chargedIm c hc))
  refine ⟨fun n hn => ?_, hre⟩
  by_cases ht : n ∈ eosTargets
  · rcases eosTargets_cases n ht with h | h | h | h
    · exact absurd h hn
    · obtain ⟨p, hp, rfl⟩ := List.mem_map.1 h
      exact Complex.ext (same (.re p hp) (.re p hp)) (same (.im p hp) (.im p hp))
    · obtain ⟨c, hc, rfl⟩ := List.mem_map.1 h
      exact hch c hc
    · obtain ⟨c, hc, rfl⟩ := List.mem_map.1 h
      rw [← hu c hc, ← hu' c hc]
      exact hch c hc
  · rw [coeff, coeff, find_none_of hd ht, find_none_of hd' ht]

/-- **C96, command.** `wcxf2eos IN --output OUT` on a valid file in the EOS basis, with a directory with the tables, ends with
status 0 exactly if the charged currents of electrons and muons agree, and then `OUT` holds the parameters. -/
theorem C96_command (E : Env) (files : List JVal) (hf : EosDir files) (w : World)
    (f g text : String) (hg : g ≠ f) (ht : w.file f = some text) (wc : WC) (hl : loadWC E.cd E.fl text = .ok wc)
    (hv : validateWC E.st wc = .ok ()) (hw : wc.dict E.fl = .ok d) (hd : ∀ n ∈ Dict.keys d, n ∈ eosTargets) (o : Bool) :
    ((eosMain E (getSmWcs files) w ⟨f, some g, none⟩ o).2.code = 0 ↔ Universal d) ∧
    (Universal d → ∃ t out, getSmWcs files = .ok t ∧ IsEosTable t ∧
      (w.after (eosMain E (getSmWcs files) w ⟨f, some g, none⟩ o).1).file g = some (E.cd.printYaml (eosDoc out)) ∧
      (Dict.keys out).Perm eosParams ∧ ∀ k x, EosValue d k x → ∃ v c, Dict.find t k = some v ∧ Central v c ∧
        Dict.find out k = some [("central", c + x), ("min", c + x), ("max", c + x)]) := by
  obtain ⟨t, ht1, ht2, -⟩ := C96_table files hf
  obtain ⟨h1, h2⟩ := C96_export hd ht2
  have hiff : (eosMain E (getSmWcs files) w ⟨f, some g, none⟩ o).2.code = 0 ↔ Universal d := by
    constructor
    · intro hc
      obtain ⟨x, wc', d', s, out, e1, e2, e3, e4, e5, e6, -⟩ := C22_partial_success E _ w ⟨f, some g, none⟩ o hc
      have e1 := e1 (by simpa [EosArgs.target] using hg)
      rw [show (⟨f, some g, none⟩ : EosArgs).file = f from rfl, ht, Option.getD_some] at e1
      subst e1
      obtain rfl := Except.ok.inj (hl.symm.trans e2)
      obtain rfl := Except.ok.inj (hw.symm.trans e4)
      obtain rfl := Except.ok.inj (ht1.symm.trans e5)
      by_contra hu
      obtain ⟨e, he⟩ := h1.2 hu
      rw [e6] at he; cases he
    · intro hu
      cases ho : wcxf2eos d t with
      | error e => exact absurd hu (h1.1 ⟨e, ho⟩)
      | ok out =>
        have hfile : (w.after [.truncate g]).file f = some text := by
          rw [← ht]
          simp [World.after, Action.apply, hg.symm]
        have htext : eosText E (getSmWcs files) text = .ok (E.cd.printYaml (eosDoc out)) := by
          simp [eosText, hl, hv, ht1, hw, ho, bind, Except.bind, pure, Except.pure]
        simp [eosMain, eosBody, hfile, ht, htext, Ending.code]
  refine ⟨hiff, fun hu => ?_⟩
  obtain ⟨x, wc', d', s, out, e1, e2, e3, e4, e5, e6, e7⟩ := C22_partial_success E _ w ⟨f, some g, none⟩ o (hiff.2 hu)
  have e1 := e1 (by simpa [EosArgs.target] using hg)
  rw [show (⟨f, some g, none⟩ : EosArgs).file = f from rfl, ht, Option.getD_some] at e1
  subst e1
  obtain rfl := Except.ok.inj (hl.symm.trans e2)
  obtain rfl := Except.ok.inj (hw.symm.trans e4)
  obtain rfl := Except.ok.inj (ht1.symm.trans e5)
  exact ⟨t, out, ht1, ht2, e7 g rfl, h2 out e6⟩

/-! ### Cases -/

/-- A case: `cVL` for both leptons and a complex `c9` for muons. -/
example : ∃ t out, getSmWcs [eosFileDoc eosBtou, eosFileDoc eosBtos] = .ok t ∧
    wcxf2eos [("b->uenue::cVL", 2), ("b->umunumu::cVL", 2), ("b->smumu::c9", 3 + 5 * Complex.I)] t = .ok out ∧
    (∃ c, Dict.find out "b->ulnu::Re{cVL}" = some [("central", c + 2), ("min", c + 2), ("max", c + 2)]) ∧
    ∃ c, Dict.find out "b->smumu::Im{c9}" = some [("central", c + 5), ("min", c + 5), ("max", c + 5)] := by
  obtain ⟨t, h1, h2, -⟩ := C96_table [eosFileDoc eosBtou, eosFileDoc eosBtos] ⟨[], by simp, List.Perm.swap _ _ _⟩
  have hd : ∀ n ∈ Dict.keys ([("b->uenue::cVL", 2), ("b->umunumu::cVL", 2), ("b->smumu::c9", 3 + 5 * Complex.I)] : Dict String ℂ),
      n ∈ eosTargets := by
    intro n hn
    have : n ∈ ["b->uenue::cVL", "b->umunumu::cVL", "b->smumu::c9"] := hn
    revert n; decide +kernel
  obtain ⟨h3, h4⟩ := C96_export hd h2
  cases ho : wcxf2eos [("b->uenue::cVL", 2), ("b->umunumu::cVL", 2), ("b->smumu::c9", 3 + 5 * Complex.I)] t with
  | error e =>
    refine absurd ?_ (h3.1 ⟨e, ho⟩)
    intro c hc
    fin_cases hc <;> simp [coeff, Dict.find]
  | ok out =>
    refine ⟨t, out, h1, ho, ?_, ?_⟩
    · obtain ⟨v, c, -, -, h⟩ := (h4 out ho).2 _ _ (.chargedRe "cVL" (by decide))
      exact ⟨c, by simpa [coeff, Dict.find] using h⟩
    · obtain ⟨v, c, -, -, h⟩ := (h4 out ho).2 _ _ (.im ("b->smumu::", "c9") (by decide))
      exact ⟨c, by simpa [coeff, Dict.find] using h⟩

/-- A case: `cVL` for electrons alone cannot be exported. -/
example : ∃ t e, getSmWcs [eosFileDoc eosBtos, .obj [], eosFileDoc eosBtou] = .ok t ∧
    wcxf2eos [("b->uenue::cVL", 2)] t = .error e := by
  obtain ⟨t, h1, h2, -⟩ := C96_table [eosFileDoc eosBtos, .obj [], eosFileDoc eosBtou] ⟨[.obj []],
    by simp [OtherFile, MetaOk, Relevant, Dict.find], List.Perm.swap _ _ _⟩
  have hd : ∀ n ∈ Dict.keys ([("b->uenue::cVL", 2)] : Dict String ℂ), n ∈ eosTargets := by
    intro n hn
    have : n ∈ ["b->uenue::cVL"] := hn
    revert n; decide +kernel
  obtain ⟨e, he⟩ := (C96_export hd h2).1.2 fun hu => by
    have := hu "cVL" (by decide)
    simp [coeff, Dict.find] at this
  exact ⟨t, e, h1, he⟩

end Verif
