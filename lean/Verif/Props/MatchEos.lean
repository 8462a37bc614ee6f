import Verif.Props.MatchBern
import Verif.Props.LagEos

/-! C85: the semileptonic effective Lagrangian in the matching from SMEFT to WET followed by the translation to EOS. -/

set_option autoImplicit false

namespace Verif

open Spec

/-- The processes of EOS have down quarks and leptons. -/
theorem eosLep_d {GF α : ℝ} {V : M3} {p q r s : Leg} (h : NCovered (eosLepSectors GF α V) p q r s) :
    (∃ y ∈ [p, q, r, s], y.kind = .d) ∧ Unweighted p q r s := by
  have hs : ∀ x ∈ eosLepSectors GF α V, x.f2.1 = .d ∧ x.f3.1 ≠ .d := by
    intro x hx
    simp only [eosLepSectors, List.mem_append, List.mem_map] at hx
    rcases hx with ⟨l, -, rfl⟩ | ⟨l, -, rfl⟩ <;> exact ⟨rfl, by simp⟩
  have key : ∀ {p q r s : Leg} {x : NSector}, x ∈ eosLepSectors GF α V → x.Has p q r s →
      (∃ y ∈ [p, q, r, s], y.kind = .d) ∧ ∃ y ∈ [p, q, r, s], y.kind ≠ .d := by
    intro p q r s x hx ⟨h1, h2⟩
    obtain ⟨k1, k2⟩ := hs x hx
    constructor
    · rcases h2 with ⟨h, -⟩ | ⟨-, h⟩
      · exact ⟨q, by simp, (congrArg Prod.fst h).trans k1⟩
      · exact ⟨s, by simp, (congrArg Prod.fst h).trans k1⟩
    · rcases h1 with ⟨-, h⟩ | ⟨h, -⟩
      · exact ⟨r, by simp, fun e => k2 ((congrArg Prod.fst h).symm.trans e)⟩
      · exact ⟨p, by simp, fun e => k2 ((congrArg Prod.fst h).symm.trans e)⟩
  obtain ⟨x, hx, h | h⟩ := h
  · exact (key hx h).imp_right .inl
  · have hm : ∀ y : Leg, y ∈ [q, p, s, r] → y ∈ [p, q, r, s] := fun y hy => by
      simp only [List.mem_cons, List.not_mem_nil, or_false] at hy ⊢; tauto
    obtain ⟨⟨y, hy, e⟩, z, hz, e'⟩ := key hx h
    exact ⟨⟨y, hm y hy, e⟩, .inl ⟨z, hm z hz, e'⟩⟩

section

variable {ckm : ℝ → ℝ → ℝ → ℝ → M3} {default : Par} {d D D' : Dict String ℂ} {scale scale' : ℝ} {par par' : Option Par} {V : M3}
  {GF mW mZ α : ℝ} {S : JSrc → ℂ} {E : WEnv} {P : PEnv}

/-- **C85**: matching from SMEFT to WET in the JMS basis and translation to EOS gives the tree-level effective Lagrangian of the SMEFT
without that of the Standard Model, in the mass basis of the down quarks, for `b -> s l l` and `b -> u l nu`. -/
theorem C85_lagrangian (hw : Dict.WF d) (hd : ∀ key ∈ Dict.keys d, IsFlat key) (hS : SmeftFull d S)
    (h : warsawUpToJms ckm E.jms default d scale par = .ok D) (hV : ckmOf ckm (withPar default par) = .ok V)
    (hG : Dict.find (withPar default par) "GF" = some GF) (hW : Dict.find (withPar default par) "m_W" = some mW)
    (hZ : Dict.find (withPar default par) "m_Z" = some mZ) (hA : Dict.find (withPar default par) "alpha_e" = some α)
    (hp : penv E scale' par' = .ok P) (hP : Admissible P) (hm : P.p.m_b ^ 2 ≠ P.p.m_s ^ 2) (hL : JmsListing E.jms)
    (hD : jmsToEos E D scale' par' = .ok D')
    {p q r s : Leg} (pp : p.Phys) (pq : q.Phys) (pr : r.Phys) (ps : s.Phys)
    (hc : NCovered (eosLepSectors P.p.GF P.p.alpha_e P.V) p q r s) :
    (nLag (eosLepSectors P.p.GF P.p.alpha_e P.V) fun k => Dict.getD D' k 0).anti p q r s =
      (Four.rotL V fun p q r s => treeLag S (couplings GF mW mZ α S) p q r s -
        treeLag (fun _ => 0) (couplings GF mW mZ α fun _ => 0) p q r s).anti p q r s := by
  obtain ⟨J, hJ, -, hlag⟩ := match_tree hw hd hS h hV hG hW hZ hA
  obtain ⟨c1, c2⟩ := eosLep_d hc
  rw [← C72_lagrangian hp hP hm hL (joinJ_full hJ) hD hc, jms_wet _ c1 c2, joinJ_lag, hlag pp pq pr ps]

end

end Verif
