import Verif.Lemmas.LagTensor

/-! The Lagrangian of the Bern basis for given flavours. -/

set_option autoImplicit false

namespace Verif.Spec

/-- Four flavours. -/
abbrev F4 := (Kind × Fin 3) × (Kind × Fin 3) × (Kind × Fin 3) × (Kind × Fin 3)

/-- Flavours of a sector. -/
def Sector.key (x : Sector) : F4 := (x.f1, x.f2, x.f3, x.f4)

/-- Flavours of four fields. -/
def fl4 (p q r s : Leg) : F4 := (p.flav, q.flav, r.flav, s.flav)

/-- Value of the operators of a sector. -/
noncomputable def Sector.val (c : String → ℂ) (x : Sector) : Four := fun p q r s =>
  (x.ops.map fun o => c (o.pre ++ x.suffix) * (o.dirs.map fun D => D.val p.spin q.spin r.spin s.spin).sum *
    o.col.val p.col q.col r.col s.col).sum

/-- Sum over the sectors. -/
noncomputable def secSum (c : String → ℂ) : Four := fun p q r s => (bernSectors.map fun x => x.term c p q r s).sum

theorem term_eq (c : String → ℂ) (x : Sector) (p q r s : Leg) :
    x.term c p q r s = if fl4 p q r s = x.key then x.val c p q r s else 0 := by
  unfold Sector.term fl4 Sector.key Sector.val
  simp only [Prod.mk.injEq]

theorem sum_of_nodup {l : List Sector} (hl : (l.map Sector.key).Nodup) {x : Sector} (hx : x ∈ l) (c : String → ℂ) {p q r s : Leg}
    (h : fl4 p q r s = x.key) : (l.map fun y => y.term c p q r s).sum = x.val c p q r s := by
  induction l with
  | nil => cases hx
  | cons y l ih =>
    rw [List.map_cons, List.nodup_cons] at hl
    rw [List.map_cons, List.sum_cons, term_eq]
    rcases List.mem_cons.1 hx with rfl | hx
    · rw [if_pos h]
      have : (l.map fun y => y.term c p q r s).sum = 0 := by
        apply List.sum_eq_zero
        intro z hz
        obtain ⟨y, hy, rfl⟩ := List.mem_map.1 hz
        rw [term_eq, if_neg]
        intro e
        exact hl.1 (List.mem_map.2 ⟨y, hy, e.symm.trans h⟩)
      rw [this, add_zero]
    · rw [if_neg, ih hl.2 hx, zero_add]
      intro e
      exact hl.1 (List.mem_map.2 ⟨x, hx, h.symm.trans e⟩)

theorem sum_of_not_mem {l : List Sector} (c : String → ℂ) {p q r s : Leg} (h : fl4 p q r s ∉ l.map Sector.key) :
    (l.map fun y => y.term c p q r s).sum = 0 := by
  apply List.sum_eq_zero
  intro z hz
  obtain ⟨y, hy, rfl⟩ := List.mem_map.1 hz
  rw [term_eq, if_neg]
  intro e
  exact h (List.mem_map.2 ⟨y, hy, e.symm⟩)

/-- The flavours of the sectors. -/
def sectorKeys : List F4 := bernSectors.map Sector.key

theorem sectorKeys_nodup : sectorKeys.Nodup := by decide +kernel

theorem secSum_mem {x : Sector} (hx : x ∈ bernSectors) (c : String → ℂ) {p q r s : Leg} (h : fl4 p q r s = x.key) :
    secSum c p q r s = x.val c p q r s := sum_of_nodup sectorKeys_nodup hx c h

theorem secSum_not (c : String → ℂ) {p q r s : Leg} (h : fl4 p q r s ∉ sectorKeys) : secSum c p q r s = 0 := sum_of_not_mem c h

/-- Flavours of the conjugate operators, in any order. -/
def conjs (k : F4) : List F4 :=
  [(k.2.1, k.1, k.2.2.2, k.2.2.1), (k.2.1, k.2.2.1, k.2.2.2, k.1), (k.2.2.2, k.1, k.2.1, k.2.2.1), (k.2.2.2, k.2.2.1, k.2.1, k.1)]

/-- The conjugate of a sector is not a sector, in any order. -/
theorem sectorKeys_conj : ∀ k ∈ sectorKeys, ∀ k' ∈ conjs k, k' ∉ sectorKeys := by decide +kernel

theorem fl4_fl (p q r s : Leg) : fl4 p.fl q.fl r.fl s.fl = fl4 p q r s := rfl

theorem bernLag_eq (GF : ℝ) (c : String → ℂ) (p q r s : Leg) : bernLag GF c p q r s =
    ((4 * GF / Real.sqrt 2 : ℝ) : ℂ) * (secSum c p q r s + starRingEnd ℂ (secSum c q.fl p.fl s.fl r.fl)) := by
  have h : (secSum c).adj p q r s = (bernSectors.map fun x => (x.term c).adj p q r s).sum := by
    have := sum_adj bernSectors fun x => x.term c
    exact congrFun (congrFun (congrFun (congrFun this p) q) r) s
  rw [← adj_eq, h, secSum, ← List.sum_map_add]
  rfl

/-- Antisymmetrised Lagrangian on the fields of a sector: the conjugate operators do not contribute. -/
theorem bernLag_anti (GF : ℝ) (c : String → ℂ) {p q r s : Leg} (h : fl4 p q r s ∈ sectorKeys) :
    (bernLag GF c).anti p q r s = ((4 * GF / Real.sqrt 2 : ℝ) : ℂ) * (secSum c).anti p q r s := by
  have h' := sectorKeys_conj _ h
  simp only [conjs, List.forall_mem_cons] at h'
  obtain ⟨h1, h2, h3, h4, -⟩ := h'
  have z : ∀ {a b c' d : Leg}, fl4 a b c' d ∉ sectorKeys → secSum c a.fl b.fl c'.fl d.fl = 0 := fun {a b c' d} h =>
    secSum_not c (by rw [fl4_fl]; exact h)
  simp only [Four.anti, bernLag_eq]
  rw [z (a := q) (b := p) (c' := s) (d := r) h1, z (a := q) (b := r) (c' := s) (d := p) h2, z (a := s) (b := p) (c' := q) (d := r) h3,
    z (a := s) (b := r) (c' := q) (d := p) h4, map_zero]
  ring

end Verif.Spec
