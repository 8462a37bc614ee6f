import Verif.Lemmas.LagBlocks
import Verif.Lemmas.LagBern
import Verif.Lemmas.LagGen

/-! `JMS_to_Bern` preserves the Lagrangian, for the fields of a sector in the order of its operators. -/

set_option autoImplicit false

namespace Verif

open Spec

theorem fl4_elim {p q r s : Leg} {k1 k2 k3 k4 : Kind} {g1 g2 g3 g4 : Fin 3}
    (h : fl4 p q r s = ((k1, g1), (k2, g2), (k3, g3), (k4, g4))) :
    (p.kind = k1 ∧ p.gen = g1) ∧ (q.kind = k2 ∧ q.gen = g2) ∧ (r.kind = k3 ∧ r.gen = g3) ∧ s.kind = k4 ∧ s.gen = g4 := by
  unfold fl4 Leg.flav at h
  simpa only [Prod.mk.injEq] using h

/-- Sectors with four different fields. -/
theorem secSum_anti {x : Sector} (hx : x ∈ bernSectors) (c : String → ℂ) {p q r s : Leg} (h : fl4 p q r s = x.key)
    (h2 : perm2 x.key ∉ sectorKeys) (h3 : perm3 x.key ∉ sectorKeys) (h4 : perm4 x.key ∉ sectorKeys) :
    (secSum c).anti p q r s = x.val c p q r s := by
  rw [← h] at h2 h3 h4
  rw [Four.anti, secSum_mem hx c h, secSum_not c (p := r) (q := q) (r := p) (s := s) h2,
    secSum_not c (p := p) (q := s) (r := r) (s := q) h3, secSum_not c (p := r) (q := s) (r := p) (s := q) h4]
  ring

theorem secSum_anti22 {x : Sector} (hx : x ∈ bernSectors) (c : String → ℂ) {p q r s : Leg} (h : fl4 p q r s = x.key)
    (h2 : perm2 x.key ∉ sectorKeys) (h3 : perm3 x.key = x.key) (h4 : perm4 x.key ∉ sectorKeys) :
    (secSum c).anti p q r s = x.val c p q r s - x.val c p s r q := by
  have h' : fl4 p s r q = x.key := by rw [← h3, ← h]; rfl
  rw [← h] at h2 h4
  rw [Four.anti, secSum_mem hx c h, secSum_not c (p := r) (q := q) (r := p) (s := s) h2,
    secSum_mem hx c h', secSum_not c (p := r) (q := s) (r := p) (s := q) h4]
  ring

theorem secSum_anti24 {x : Sector} (hx : x ∈ bernSectors) (c : String → ℂ) {p q r s : Leg} (h : fl4 p q r s = x.key)
    (h2 : perm2 x.key = x.key) (h3 : perm3 x.key ∉ sectorKeys) (h4 : perm4 x.key ∉ sectorKeys) :
    (secSum c).anti p q r s = x.val c p q r s - x.val c r q p s := by
  have h' : fl4 r q p s = x.key := by rw [← h2, ← h]; rfl
  rw [← h] at h3 h4
  rw [Four.anti, secSum_mem hx c h, secSum_mem hx c h',
    secSum_not c (p := p) (q := s) (r := r) (s := q) h3, secSum_not c (p := r) (q := s) (r := p) (s := q) h4]
  ring

theorem secSum_antiI {x : Sector} (hx : x ∈ bernSectors) (c : String → ℂ) {p q r s : Leg} (h : fl4 p q r s = x.key)
    (h2 : perm2 x.key = x.key) (h3 : perm3 x.key = x.key) (h4 : perm4 x.key = x.key) :
    (secSum c).anti p q r s = x.val c p q r s - x.val c r q p s - x.val c p s r q + x.val c r s p q := by
  have h2' : fl4 r q p s = x.key := by rw [← h2, ← h]; rfl
  have h3' : fl4 p s r q = x.key := by rw [← h3, ← h]; rfl
  have h4' : fl4 r s p q = x.key := by rw [← h4, ← h]; rfl
  rw [Four.anti, secSum_mem hx c h, secSum_mem hx c h2', secSum_mem hx c h3', secSum_mem hx c h4']

/-- A sector with four down quarks. -/
def sectord (ops : List BOp) (x : Fin 3 × Fin 3 × Fin 3 × Fin 3) : Sector := sector ops (.d, x.1) (.d, x.2.1) (.d, x.2.2.1) (.d, x.2.2.2)

theorem bernSectors_eq : bernSectors =
    (ddPairs.map fun x => sector opsI (.d, x.1) (.d, x.2) (.d, x.1) (.d, x.2)) ++
    ([0, 1].flatMap fun u => [0, 1, 2].flatMap fun d => [0, 1, 2].flatMap fun l => [0, 1, 2].map fun n =>
      sector opsII (.u, u) (.d, d) (.e, l) (.nu, n)) ++
    (ddPairs.flatMap fun x => [0, 1].flatMap fun u => [0, 1].map fun u' =>
      sector (opsOdd .L .R .R .L ++ opsEven) (.d, x.1) (.d, x.2) (.u, u) (.u, u')) ++
    dddGen.map (sectord (opsOdd .L .R .R .L ++ opsEven)) ++ ddd22.map (sectord (opsOdd .L .R .R .L)) ++
    ddd24.map (sectord (opsOdd .L .R .L .R)) ++
    (ddPairs.flatMap fun x => [0, 1, 2].flatMap fun l => [0, 1, 2].flatMap fun l' =>
      [sector (opsOdd .L .R .R .L) (.d, x.1) (.d, x.2) (.e, l) (.e, l'), sector opsNu (.d, x.1) (.d, x.2) (.nu, l) (.nu, l')]) := rfl

section

variable {P : PEnv} (hP : Admissible P) {L : List String} {C : Dict String ℂ} {J : JSrc → ℂ} (hJ : JmsFull L C J)

include hP hJ

theorem lag_direct {p q r s : Leg} (h : fl4 p q r s ∈ sectorKeys) :
    (jmsLag J).anti p q r s = (secSum (bat J (blkJmsBern P).flatten)).anti p q r s := by
  obtain ⟨x, hx, hk⟩ := List.mem_map.1 h
  have hx' := hx
  rw [bernSectors_eq] at hx
  simp only [List.mem_append, List.mem_flatMap, List.mem_map] at hx
  rcases hx with (((((hx | hx) | hx) | hx) | hx) | hx) | hx
  · obtain ⟨y, hy, rfl⟩ := hx
    rw [secSum_antiI hx' _ hk.symm rfl rfl rfl]
    obtain ⟨⟨hp, hp'⟩, ⟨hq, hq'⟩, ⟨hr, hr'⟩, hs, hs'⟩ := fl4_elim (k1 := .d) (k2 := .d) (k3 := .d) (k4 := .d) hk.symm
    have e : (sector opsI (.d, y.1) (.d, y.2) (.d, y.1) (.d, y.2)).suffix =
        (qname (.d, y.1) ++ qname (.d, y.2)) ++ (qname (.d, y.1) ++ qname (.d, y.2)) := by
      simp only [sector, String.append_assoc]
    have := block_I J (bat J (blkJmsBern P).flatten) _ (.d, y.1) (.d, y.2) (.d, y.1) (.d, y.2) hp hq hr hs (hr'.trans hp'.symm)
      (hs'.trans hq'.symm) (by rw [hp', hq']; exact table_I hP J y hy)
    rw [← e] at this
    exact this
  · obtain ⟨u, hu, d, -, l, -, n, -, rfl⟩ := hx
    have hc : ∀ u ∈ [(0 : Fin 3), 1], ∀ d l n : Fin 3, ∀ f ∈ [perm2, perm3, perm4],
        f (sector opsII (.u, u) (.d, d) (.e, l) (.nu, n)).key ∉ sectorKeys := by decide +kernel
    rw [secSum_anti hx' _ hk.symm (hc u hu d l n _ (by simp)) (hc u hu d l n _ (by simp)) (hc u hu d l n _ (by simp))]
    obtain ⟨⟨hp, hp'⟩, ⟨hq, hq'⟩, ⟨hr, hr'⟩, hs, hs'⟩ := fl4_elim (k1 := .u) (k2 := .d) (k3 := .e) (k4 := .nu) hk.symm
    exact block_II J _ _ (.u, u) (.d, d) (.e, l) (.nu, n) hp hq hr hs (by rw [hp', hq', hr', hs']; exact table_II hP J u hu d l n)
  · obtain ⟨y, hy, u, hu, v, hv, rfl⟩ := hx
    have hc : ∀ y ∈ ddPairs, ∀ u ∈ [(0 : Fin 3), 1], ∀ v ∈ [(0 : Fin 3), 1], ∀ f ∈ [perm2, perm3, perm4],
        f (sector (opsOdd .L .R .R .L ++ opsEven) (.d, y.1) (.d, y.2) (.u, u) (.u, v)).key ∉ sectorKeys := by decide +kernel
    rw [secSum_anti hx' _ hk.symm (hc y hy u hu v hv _ (by simp)) (hc y hy u hu v hv _ (by simp)) (hc y hy u hu v hv _ (by simp))]
    obtain ⟨⟨hp, hp'⟩, ⟨hq, hq'⟩, ⟨hr, hr'⟩, hs, hs'⟩ := fl4_elim (k1 := .d) (k2 := .d) (k3 := .u) (k4 := .u) hk.symm
    obtain ⟨F, hF, hW⟩ := table_u hP J y hy u hu v hv
    exact block_u J _ F _ (.d, y.1) (.d, y.2) (.u, u) (.u, v) hp hq hr hs (by rw [hp', hq', hr', hs']; exact hF) hW
  · obtain ⟨y, hy, rfl⟩ := hx
    have hc : ∀ y ∈ dddGen, ∀ f ∈ [perm2, perm3, perm4], f (sectord (opsOdd .L .R .R .L ++ opsEven) y).key ∉ sectorKeys := by
      decide +kernel
    rw [secSum_anti hx' _ hk.symm (hc y hy _ (by simp)) (hc y hy _ (by simp)) (hc y hy _ (by simp))]
    obtain ⟨⟨hp, hp'⟩, ⟨hq, hq'⟩, ⟨hr, hr'⟩, hs, hs'⟩ := fl4_elim (k1 := .d) (k2 := .d) (k3 := .d) (k4 := .d) hk.symm
    obtain ⟨F, hF, hW⟩ := table_dGen hP J y hy
    have hg : ∀ y ∈ dddGen, (y.1, y.2.1) ≠ (y.2.2.1, y.2.2.2) ∧ (y.2.2.1, y.2.1) ≠ (y.1, y.2.2.2) ∧ y.2.2.2 = y.2.2.1 := by
      decide +kernel
    obtain ⟨g1, g2, g3⟩ := hg y hy
    rw [← hp', ← hq', ← hr', ← hs'] at g1 g2
    rw [← hr', ← hs'] at g3
    exact block_dGen J _ F _ _ _ _ _ hp hq hr hs hJ.exch g1 g2 g3 (by rw [hp', hq', hr', hs']; exact hF) hW
  · obtain ⟨y, hy, rfl⟩ := hx
    have hc : ∀ y ∈ ddd22, ∀ f ∈ [perm2, perm4], f (sectord (opsOdd .L .R .R .L) y).key ∉ sectorKeys := by decide +kernel
    have hg : ∀ y ∈ ddd22, (y.1, y.2.1) ≠ (y.2.2.1, y.2.2.2) ∧ (y.2.2.1, y.2.1) ≠ (y.1, y.2.2.2) ∧ y.2.2.2 = y.2.1 := by
      decide +kernel
    have he : ∀ y ∈ ddd22, perm3 (sectord (opsOdd .L .R .R .L) y).key = (sectord (opsOdd .L .R .R .L) y).key := by decide +kernel
    rw [secSum_anti22 hx' _ hk.symm (hc y hy _ (by simp)) (he y hy) (hc y hy _ (by simp))]
    obtain ⟨⟨hp, hp'⟩, ⟨hq, hq'⟩, ⟨hr, hr'⟩, hs, hs'⟩ := fl4_elim (k1 := .d) (k2 := .d) (k3 := .d) (k4 := .d) hk.symm
    obtain ⟨F, hF, hW⟩ := table_d22 hP J y hy
    obtain ⟨g1, g2, g3⟩ := hg y hy
    rw [← hp', ← hq', ← hr', ← hs'] at g1 g2
    rw [← hq', ← hs'] at g3
    exact block_d22 J _ F _ _ _ _ _ hp hq hr hs hJ.exch g1 g2 g3 (by rw [hp', hq', hr', hs']; exact hF) hW
  · obtain ⟨y, hy, rfl⟩ := hx
    have hc : ∀ y ∈ ddd24, ∀ f ∈ [perm3, perm4], f (sectord (opsOdd .L .R .L .R) y).key ∉ sectorKeys := by decide +kernel
    have hg : ∀ y ∈ ddd24, (y.1, y.2.1) ≠ (y.2.2.1, y.2.2.2) ∧ (y.2.2.1, y.2.1) ≠ (y.1, y.2.2.2) ∧ y.2.2.1 = y.1 := by
      decide +kernel
    have he : ∀ y ∈ ddd24, perm2 (sectord (opsOdd .L .R .L .R) y).key = (sectord (opsOdd .L .R .L .R) y).key := by decide +kernel
    rw [secSum_anti24 hx' _ hk.symm (he y hy) (hc y hy _ (by simp)) (hc y hy _ (by simp))]
    obtain ⟨⟨hp, hp'⟩, ⟨hq, hq'⟩, ⟨hr, hr'⟩, hs, hs'⟩ := fl4_elim (k1 := .d) (k2 := .d) (k3 := .d) (k4 := .d) hk.symm
    obtain ⟨F, hF, hW⟩ := table_d24 hP J y hy
    obtain ⟨g1, g2, g3⟩ := hg y hy
    rw [← hp', ← hq', ← hr', ← hs'] at g1 g2
    rw [← hr', ← hp'] at g3
    exact block_d24 J _ F _ _ _ _ _ hp hq hr hs hJ.exch g1 g2 g3 (by rw [hp', hq', hr', hs']; exact hF) hW
  · obtain ⟨y, hy, l, -, n, -, hx⟩ := hx
    obtain ⟨F, hF, hW⟩ := table_lep hP J y hy l n
    simp only [List.mem_cons, List.not_mem_nil, or_false] at hx
    rcases hx with rfl | rfl
    · have hc : ∀ y ∈ ddPairs, ∀ l n : Fin 3, ∀ f ∈ [perm2, perm3, perm4],
          f (sector (opsOdd .L .R .R .L) (.d, y.1) (.d, y.2) (.e, l) (.e, n)).key ∉ sectorKeys := by decide +kernel
      rw [secSum_anti hx' _ hk.symm (hc y hy l n _ (by simp)) (hc y hy l n _ (by simp)) (hc y hy l n _ (by simp))]
      obtain ⟨⟨hp, hp'⟩, ⟨hq, hq'⟩, ⟨hr, hr'⟩, hs, hs'⟩ := fl4_elim (k1 := .d) (k2 := .d) (k3 := .e) (k4 := .e) hk.symm
      exact block_e J _ F _ (.d, y.1) (.d, y.2) (.e, l) (.e, n) hp hq hr hs (by rw [hp', hq', hr', hs']; exact hF) hW
    · have hc : ∀ y ∈ ddPairs, ∀ l n : Fin 3, ∀ f ∈ [perm2, perm3, perm4],
          f (sector opsNu (.d, y.1) (.d, y.2) (.nu, l) (.nu, n)).key ∉ sectorKeys := by decide +kernel
      rw [secSum_anti hx' _ hk.symm (hc y hy l n _ (by simp)) (hc y hy l n _ (by simp)) (hc y hy l n _ (by simp))]
      obtain ⟨⟨hp, hp'⟩, ⟨hq, hq'⟩, ⟨hr, hr'⟩, hs, hs'⟩ := fl4_elim (k1 := .d) (k2 := .d) (k3 := .nu) (k4 := .nu) hk.symm
      have e : (sector opsNu (.d, y.1) (.d, y.2) (.nu, l) (.nu, n)).suffix = suf (.d, y.1) (.d, y.2) (.e, l) (.e, n) := by
        have h : ∀ l : Fin 3, qname (.nu, l) = qname (.e, l) := by decide +kernel
        simp only [sector, suf, h]
      have := block_nu J (bat J (blkJmsBern P).flatten) F _ (.d, y.1) (.d, y.2) (.nu, l) (.nu, n) hp hq hr hs (by rw [hp', hq', hr', hs']; exact hF) hW
      rw [← e] at this
      exact this

end

/-- The sum over the sectors is linear in the coefficients. -/
theorem secSum_smul (a : ℂ) (c d : String → ℂ) (h : ∀ k, d k = a * c k) : secSum d = fun p q r s => a * secSum c p q r s := by
  funext p q r s
  unfold secSum
  rw [← List.sum_map_mul_left]
  congr 1
  refine List.map_congr_left fun x _ => ?_
  rw [term_eq, term_eq, mul_ite, mul_zero]
  congr 1
  unfold Sector.val
  rw [← List.sum_map_mul_left]
  congr 1
  refine List.map_congr_left fun o _ => ?_
  rw [h]; ring

end Verif
