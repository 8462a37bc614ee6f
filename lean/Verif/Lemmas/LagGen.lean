import Verif.Lemmas.LagSectors
import Verif.Spec.LagFlavio

/-! Lagrangians that are sums over sectors, for given flavours. -/

set_option autoImplicit false

namespace Verif.Spec

/-- Flavours of a sector. -/
def NSector.key (x : NSector) : F4 := (x.f1, x.f2, x.f3, x.f4)

/-- Value of the operators of a sector. -/
noncomputable def NSector.val (c : String → ℂ) (x : NSector) : Four := fun p q r s =>
  (x.ops.map fun o => o.norm * c o.name * (o.dirs.map fun D => (D.1 : ℂ) * D.2.val p.spin q.spin r.spin s.spin).sum).sum *
    Col.one.val p.col q.col r.col s.col

/-- Sum over the sectors. -/
noncomputable def nSum (l : List NSector) (c : String → ℂ) : Four := fun p q r s => (l.map fun x => x.term c p q r s).sum

theorem nTerm_eq (c : String → ℂ) (x : NSector) (p q r s : Leg) :
    x.term c p q r s = if fl4 p q r s = x.key then x.val c p q r s else 0 := by
  unfold NSector.term fl4 NSector.key NSector.val
  simp only [Prod.mk.injEq]

theorem nSum_not (l : List NSector) (c : String → ℂ) {p q r s : Leg} (h : fl4 p q r s ∉ l.map NSector.key) :
    nSum l c p q r s = 0 := by
  apply List.sum_eq_zero
  intro z hz
  obtain ⟨y, hy, rfl⟩ := List.mem_map.1 hz
  rw [nTerm_eq, if_neg]
  intro e
  exact h (List.mem_map.2 ⟨y, hy, e.symm⟩)

theorem nSum_mem {l : List NSector} (hl : (l.map NSector.key).Nodup) {x : NSector} (hx : x ∈ l) (c : String → ℂ) {p q r s : Leg}
    (h : fl4 p q r s = x.key) : nSum l c p q r s = x.val c p q r s := by
  induction l with
  | nil => cases hx
  | cons y l ih =>
    rw [List.map_cons, List.nodup_cons] at hl
    rw [nSum, List.map_cons, List.sum_cons, nTerm_eq]
    rcases List.mem_cons.1 hx with rfl | hx
    · rw [if_pos h]
      have : nSum l c p q r s = 0 := nSum_not l c fun e => hl.1 (h ▸ e)
      rw [nSum] at this
      rw [this, add_zero]
    · have := ih hl.2 hx
      rw [nSum] at this
      rw [if_neg, this, zero_add]
      intro e
      exact hl.1 (List.mem_map.2 ⟨x, hx, h.symm.trans e⟩)

theorem nLag_eq (l : List NSector) (c : String → ℂ) (p q r s : Leg) : nLag l c p q r s =
    nSum l c p q r s + starRingEnd ℂ (nSum l c q.fl p.fl s.fl r.fl) := by
  have h : (nSum l c).adj p q r s = (l.map fun x => (x.term c).adj p q r s).sum := by
    have := sum_adj l fun x => x.term c
    exact congrFun (congrFun (congrFun (congrFun this p) q) r) s
  rw [← adj_eq, h, nSum, ← List.sum_map_add]
  rfl

theorem nLag_adj (l : List NSector) (c : String → ℂ) : (nLag l c).adj = nLag l c := by
  have e : nLag l c = fun p q r s => nSum l c p q r s + (nSum l c).adj p q r s := by
    funext p q r s
    rw [nLag_eq, adj_eq]
  rw [e, adj_add, adj_adj]
  funext p q r s
  exact add_comm _ _

/-- Antisymmetrised Lagrangian on the fields of a sector, if the conjugate operators do not contribute. -/
theorem nLag_anti {l : List NSector} (c : String → ℂ) {p q r s : Leg} (h : ∀ k ∈ conjs (fl4 p q r s), k ∉ l.map NSector.key) :
    (nLag l c).anti p q r s = (nSum l c).anti p q r s := by
  simp only [conjs, List.forall_mem_cons] at h
  obtain ⟨h1, h2, h3, h4, -⟩ := h
  have z : ∀ {a b c' d : Leg}, fl4 a b c' d ∉ l.map NSector.key → nSum l c a.fl b.fl c'.fl d.fl = 0 := fun {a b c' d} h =>
    nSum_not l c (by rw [fl4_fl]; exact h)
  simp only [Four.anti, nLag_eq]
  rw [z (a := q) (b := p) (c' := s) (d := r) h1, z (a := q) (b := r) (c' := s) (d := p) h2, z (a := s) (b := p) (c' := q) (d := r) h3,
    z (a := s) (b := r) (c' := q) (d := p) h4, map_zero]
  ring

/-- Exchange of the barred fields, of the unbarred fields, and of both. -/
def perm2 (k : F4) : F4 := (k.2.2.1, k.2.1, k.1, k.2.2.2)

def perm3 (k : F4) : F4 := (k.1, k.2.2.2, k.2.2.1, k.2.1)

def perm4 (k : F4) : F4 := (k.2.2.1, k.2.2.2, k.1, k.2.1)

/-- Sectors with four different fields. -/
theorem nSum_anti {l : List NSector} (hl : (l.map NSector.key).Nodup) {x : NSector} (hx : x ∈ l) (c : String → ℂ) {p q r s : Leg}
    (h : fl4 p q r s = x.key) (h' : ∀ f ∈ [perm2, perm3, perm4], f x.key ∉ l.map NSector.key) :
    (nSum l c).anti p q r s = x.val c p q r s := by
  simp only [List.forall_mem_cons, List.not_mem_nil, false_implies, implies_true, and_true] at h'
  obtain ⟨h2, h3, h4⟩ := h'
  rw [← h] at h2 h3 h4
  rw [Four.anti, nSum_mem hl hx c h, nSum_not l c (p := r) (q := q) (r := p) (s := s) h2,
    nSum_not l c (p := p) (q := s) (r := r) (s := q) h3, nSum_not l c (p := r) (q := s) (r := p) (s := q) h4]
  ring

theorem nSum_antiI {l : List NSector} (hl : (l.map NSector.key).Nodup) {x : NSector} (hx : x ∈ l) (c : String → ℂ) {p q r s : Leg}
    (h : fl4 p q r s = x.key) (h2 : perm2 x.key = x.key) (h3 : perm3 x.key = x.key) (h4 : perm4 x.key = x.key) :
    (nSum l c).anti p q r s = x.val c p q r s - x.val c r q p s - x.val c p s r q + x.val c r s p q := by
  have h2' : fl4 r q p s = x.key := by rw [← h2, ← h]; rfl
  have h3' : fl4 p s r q = x.key := by rw [← h3, ← h]; rfl
  have h4' : fl4 r s p q = x.key := by rw [← h4, ← h]; rfl
  rw [Four.anti, nSum_mem hl hx c h, nSum_mem hl hx c h2', nSum_mem hl hx c h3', nSum_mem hl hx c h4']

/-- Extension to all orders of the fields and to the conjugate processes. -/
theorem nCovered_ext {S : Four} (hS : S.adj = S) {l : List NSector} {c : String → ℂ}
    (key : ∀ {p q r s : Leg}, fl4 p q r s ∈ l.map NSector.key → S.anti p q r s = (nLag l c).anti p q r s) {p q r s : Leg}
    (h : NCovered l p q r s) : S.anti p q r s = (nLag l c).anti p q r s := by
  have has : ∀ {x : NSector}, x ∈ l → ∀ {p q r s : Leg}, x.Has p q r s → S.anti p q r s = (nLag l c).anti p q r s := by
    intro x hx p q r s h
    have key : ∀ {p q r s : Leg}, p.flav = x.f1 → q.flav = x.f2 → r.flav = x.f3 → s.flav = x.f4 →
        S.anti p q r s = (nLag l c).anti p q r s := by
      intro p q r s h1 h2 h3 h4
      refine key (List.mem_map.2 ⟨x, hx, ?_⟩)
      unfold NSector.key fl4
      rw [h1, h2, h3, h4]
    have s1 := fun T : Four => anti_swap1 T p q r s
    have s2 := fun T : Four => anti_swap2 T p q r s
    have s3 := fun T : Four => anti_swap1 T p s r q
    obtain ⟨⟨h1, h3⟩ | ⟨h3, h1⟩, ⟨h2, h4⟩ | ⟨h4, h2⟩⟩ := h
    · exact key h1 h2 h3 h4
    · have := key h1 h2 h3 h4
      rw [s2, s2] at this
      exact neg_injective this
    · have := key h1 h2 h3 h4
      rw [s1, s1] at this
      exact neg_injective this
    · have := key h1 h2 h3 h4
      rw [s3, s3, s2, s2] at this
      exact neg_injective (neg_injective this)
  obtain ⟨x, hx, h | h⟩ := h
  · exact has hx h
  · have h' : x.Has q.fl p.fl s.fl r.fl := h
    have := has hx h'
    have c' : ∀ T : Four, T.adj = T → T.anti p q r s = starRingEnd ℂ (T.anti q.fl p.fl s.fl r.fl) := by
      intro T hT
      rw [← adj_eq, anti_adj, hT]
    rw [c' _ hS, c' _ (nLag_adj l c), this]

end Verif.Spec
