import Verif.Lemmas.RegistryInv
import Mathlib.Data.List.Induction

/-!
C01, C02: what the registries and the listings return after any history.
-/

set_option autoImplicit false

namespace Verif

open Spec

/-- A history used as the concrete case: two EFTs, two bases, a child basis, a translator, an
overwriting definition, a deletion, a clear. -/
def sampleOps : List Op :=
  [ .newEFT "WET" [("sb", .obj [])] [],
    .newBasis "WET" "JMS" [("sb", .obj [("C1", .obj []), ("C2", .obj [])])] [],
    .newBasis "WET" "flavio" [("sb", .obj [("C9", .null)])] [("parent", .str "JMS")],
    .allWcs 1,
    .newTranslator "WET" "JMS" "flavio" (fun d _ _ => .ok d),
    .newBasis "WET" "Bern" [] [],
    .newBasis "WET" "JMS" [] [],
    .del .basis ["WET", "Bern"],
    .del .basis ["WET", "Nope"],
    .newMatcher "SMEFT" "Warsaw" "WET" "JMS" (fun d _ _ => .ok d),
    .clear .translator,
    .newBasis "SMEFT" "Warsaw" [] [] ]

theorem sampleOps_onFour : ∀ op ∈ sampleOps, op.onFour := by
  simp [sampleOps, Op.onFour]

theorem sampleOps_events : events (runLog .empty sampleOps).2 =
    [.reg .eft ["WET"] 0, .reg .basis ["WET", "JMS"] 1, .reg .basis ["WET", "flavio"] 2, .read,
     .reg .translator ["WET", "JMS", "flavio"] 3, .reg .basis ["WET", "Bern"] 4,
     .reg .basis ["WET", "JMS"] 5, .del .basis ["WET", "Bern"],
     .reg .matcher ["SMEFT", "Warsaw", "WET", "JMS"] 6, .clear .translator,
     .reg .basis ["SMEFT", "Warsaw"] 7] := by
  rfl

theorem sampleOps_built : AllBuilt (runLog .empty sampleOps).2 := by
  intro p hp hn
  obtain ⟨op, r⟩ := p
  cases r with
  | ok e => exact ⟨e, rfl⟩
  | error e =>
    exfalso
    have h : (runLog .empty sampleOps).2.all (fun p => !(p.1.isNew && !p.2.isOk)) = true := by rfl
    have := List.all_eq_true.1 h _ hp
    simp only at hn
    simp [hn, Except.isOk, Except.toBool] at this

/-- **C01.** After every history of constructions (all successful), deletions and clear-all calls on
the four registries: indexing returns `i` exactly if `i` is the latest live registration under that
name; it raises exactly if nothing is live, namely `KeyError` if the class was ever used and
`AttributeError` if not. -/
theorem C01_lookup_latest_live (ops : List Op) (h4 : ∀ op ∈ ops, op.onFour)
    (hb : AllBuilt (runLog .empty ops).2) (c : Cls) (n : Name) :
    (∀ i, (run ops).lookup c n = .ok i ↔ Live (events (runLog .empty ops).2) c n i) ∧
    ((run ops).lookup c n = .error .keyError ↔
      Used (events (runLog .empty ops).2) c ∧ ¬ IsLive (events (runLog .empty ops).2) c n) ∧
    ((run ops).lookup c n = .error .attributeError ↔ ¬ Used (events (runLog .empty ops).2) c) := by
  have h : Refines (run ops) (events (runLog .empty ops).2) :=
    run_refines ops h4 hb
  unfold IsLive
  simp only [← h.live, ← h.used]
  unfold Store.lookup
  rw [registry_of_noBase h.noBase]
  cases (run ops).instances c with
  | none => simp
  | some d =>
    unfold Dict.get
    dsimp only [Option.bind_some]
    cases Dict.find d n <;> simp

/-- At most one object is live under a name, so `C01_lookup_latest_live` determines the answer. -/
theorem C01_live_unique (log : List Event) (c : Cls) (n : Name) (i j : Id)
    (hi : Live log c n i) (hj : Live log c n j) : i = j := by
  induction log using List.reverseRecOn with
  | nil => exact absurd hi (live_nil c n i)
  | append_singleton log e ih =>
    rw [live_snoc] at hi hj
    rcases hi with rfl | ⟨_, h2, h3⟩
    · rcases hj with h | ⟨_, h, _⟩
      · cases h; rfl
      · exact absurd ⟨i, rfl⟩ h
    · rcases hj with rfl | ⟨_, _, h⟩
      · exact absurd ⟨j, rfl⟩ h2
      · exact ih h3 h

/-- Concrete case of C01: the second definition of `JMS` is returned, the deleted `Bern` raises. -/
example : (run sampleOps).lookup .basis ["WET", "JMS"] = .ok 5 ∧
    (run sampleOps).lookup .basis ["WET", "Bern"] = .error .keyError ∧
    (run sampleOps).lookup .translator ["WET", "JMS", "flavio"] = .error .keyError ∧
    (run sampleOps).lookup .matcher ["SMEFT", "Warsaw", "WET", "JMS"] = .ok 6 :=
  ⟨rfl, rfl, rfl, rfl⟩

example : Live (events (runLog .empty sampleOps).2) .basis ["WET", "JMS"] 5 :=
  ((C01_lookup_latest_live sampleOps sampleOps_onFour sampleOps_built _ _).1 5).1 rfl

/-- **C01, isolation.** One operation on one registry changes no lookup in another registry. -/
theorem C01_isolation (ops : List Op) (h4 : ∀ op ∈ ops, op.onFour)
    (hb : AllBuilt (runLog .empty ops).2) (op : Op) (c c' : Cls) (hc : c ≠ c')
    (hop : op.target.map Prod.fst = some c ∨ (∃ n, op = .del c n) ∨ op = .clear c)
    (h4' : op.onFour) (n : Name) :
    (exec (run ops) op).1.lookup c' n = (run ops).lookup c' n := by
  have h : Refines (run ops) (events (runLog .empty ops).2) :=
    run_refines ops h4 hb
  have key : ∀ st' : Store, st'.instances c' = (run ops).instances c' → NoBase st' →
      st'.lookup c' n = (run ops).lookup c' n := by
    intro st' h1 h2
    unfold Store.lookup
    rw [registry_of_noBase h.noBase, registry_of_noBase h2, h1]
  rcases hop with ht | ⟨m, rfl⟩ | rfl
  · rw [Option.map_eq_some_iff] at ht
    obtain ⟨⟨c0, m⟩, ht, rfl⟩ := ht
    have he := exec_instances_new (run ops) op ht
    rw [register_of_noBase h.noBase] at he
    apply key
    · rw [he, Function.update_of_ne (Ne.symm hc)]
    · unfold NoBase
      rw [he, Function.update_of_ne (Ne.symm (target_ne_base ht))]; exact h.noBase
  · have h0 : c ≠ .base := h4'
    simp only [exec]
    rcases delete_of_noBase h.noBase c m with he | he
    · apply key
      · rw [he, Function.update_of_ne (Ne.symm hc)]
      · unfold NoBase; rw [he, Function.update_of_ne (Ne.symm h0)]; exact h.noBase
    · rw [he]
  · have h0 : c ≠ .base := h4'
    apply key
    · simp [exec, Store.clearAll, Function.update_of_ne (Ne.symm hc)]
    · unfold NoBase
      simp only [exec, Store.clearAll]
      rw [Function.update_of_ne (Ne.symm h0)]; exact h.noBase

/-- Concrete case: clearing the bases keeps the matcher. -/
example : (exec (run sampleOps) (.clear .basis)).1.lookup .matcher ["SMEFT", "Warsaw", "WET", "JMS"]
    = .ok 6 := rfl

/-- The restriction to the four registries in C01 is necessary: calling `clear_all` on the common base
class *before* the first definition makes all four classes share one registry, so that clearing
it again removes a basis although `Basis.clear_all` was never called. -/
theorem C01_base_class_clear_shares_registry :
    (run [.clear .base, .newBasis "E" "b" [] []]).lookup .basis ["E", "b"] = .ok 0 ∧
    (run [.clear .base, .newBasis "E" "b" [] [], .clear .base]).lookup .basis ["E", "b"]
      = .error .keyError ∧
    (run [.clear .base, .newBasis "E" "b" [] []]).lookup .translator ["E", "b"] = .ok 0 :=
  ⟨rfl, rfl, rfl⟩

/-! ### C02 -/

/-- **C02, bases.** `known_bases` raises (`AttributeError`) exactly if `Basis` was never used;
otherwise it lists, without repetition and in the order in which they became live, the second
components of the live basis names of that EFT. -/
theorem C02_known_bases (ops : List Op) (h4 : ∀ op ∈ ops, op.onFour)
    (hb : AllBuilt (runLog .empty ops).2) (eft : String) :
    (¬ Used (events (runLog .empty ops).2) .basis → knownBases (run ops) eft = .error .attributeError) ∧
    (Used (events (runLog .empty ops).2) .basis → ∃ l, knownBases (run ops) eft = .ok l ∧ l.Nodup ∧
      (∀ b, b ∈ l ↔ IsLive (events (runLog .empty ops).2) .basis [eft, b]) ∧
      l.map (fun b => [eft, b]) =
        (liveNames (events (runLog .empty ops).2) .basis).filter
          (fun n => n.length = 2 ∧ n[0]? = some eft)) := by
  have h : Refines (run ops) (events (runLog .empty ops).2) :=
    run_refines ops h4 hb
  rw [← h.used, ← h.names]
  unfold knownBases
  rw [registry_of_noBase h.noBase]
  have hl := isLive_iff_of_refines h .basis
  cases hd : (run ops).instances .basis with
  | none => simp
  | some d =>
    refine ⟨by simp, fun _ => ⟨_, rfl, ?_, ?_, ?_⟩⟩
    · apply List.Nodup.filterMap _ (h.wf _ _ hd)
      intro a a' b ha ha'
      simp only [Option.mem_def] at ha ha'
      split at ha
      · split at ha'
        · simp only [Option.ite_none_right_eq_some, Option.some.injEq] at ha ha'
          rw [ha.1, ha.2, ha'.1, ha'.2]
        · simp at ha'
      · simp at ha
    · intro b
      rw [hl, hd]
      simp only [Option.map_some, Option.getD_some, List.mem_filterMap]
      constructor
      · rintro ⟨n, hn, h2⟩
        split at h2
        · simp only [Option.ite_none_right_eq_some, Option.some.injEq] at h2
          rw [← h2.1, ← h2.2]; exact hn
        · simp at h2
      · intro hn
        exact ⟨_, hn, by simp⟩
    · simp only [Option.map_some, Option.getD_some]
      induction Dict.keys d with
      | nil => rfl
      | cons n l ih =>
        rw [List.filterMap_cons, List.filter_cons]
        match n with
        | [] => simpa using ih
        | [a] => simpa using ih
        | [a, b] =>
          by_cases ha : a = eft
          · subst ha; simpa using ih
          · simpa [ha] using ih
        | a :: b :: c :: t => simpa using ih

/-- **C02, translators of an EFT and of a basis.** -/
theorem C02_known_translators (ops : List Op) (h4 : ∀ op ∈ ops, op.onFour)
    (hb : AllBuilt (runLog .empty ops).2) (eft basis : String) :
    (¬ Used (events (runLog .empty ops).2) .translator →
      knownTranslatorsEFT (run ops) eft = .error .attributeError ∧
      knownTranslatorsBasis (run ops) eft basis = .error .attributeError) ∧
    (Used (events (runLog .empty ops).2) .translator →
      ∃ l from_ to_, knownTranslatorsEFT (run ops) eft = .ok l ∧
      knownTranslatorsBasis (run ops) eft basis = .ok (from_, to_) ∧
      l.Nodup ∧ from_.Nodup ∧ to_.Nodup ∧
      (∀ n, n ∈ l ↔ IsLive (events (runLog .empty ops).2) .translator n ∧ n[0]? = some eft) ∧
      (∀ n, n ∈ from_ ↔ IsLive (events (runLog .empty ops).2) .translator n ∧ n[0]? = some eft ∧
        n[1]? = some basis) ∧
      (∀ n, n ∈ to_ ↔ IsLive (events (runLog .empty ops).2) .translator n ∧ n[0]? = some eft ∧
        n[2]? = some basis) ∧
      l.Sublist (liveNames (events (runLog .empty ops).2) .translator) ∧
      from_.Sublist (liveNames (events (runLog .empty ops).2) .translator) ∧
      to_.Sublist (liveNames (events (runLog .empty ops).2) .translator)) := by
  have h : Refines (run ops) (events (runLog .empty ops).2) :=
    run_refines ops h4 hb
  rw [← h.used, ← h.names]
  unfold knownTranslatorsEFT knownTranslatorsBasis
  rw [registry_of_noBase h.noBase]
  have hl := isLive_iff_of_refines h .translator
  cases hd : (run ops).instances .translator with
  | none => simp
  | some d =>
    have hw := h.wf _ _ hd
    refine ⟨by simp, fun _ => ⟨_, _, _, rfl, rfl, List.Nodup.filter _ hw, List.Nodup.filter _ hw,
      List.Nodup.filter _ hw, ?_, ?_, ?_, ?_, ?_, ?_⟩⟩
    · intro n; rw [hl, hd]; simp [List.mem_filter]
    · intro n; rw [hl, hd]; simp [List.mem_filter]
    · intro n; rw [hl, hd]; simp [List.mem_filter]
    all_goals exact List.filter_sublist

/-- Concrete case of C02. -/
example : knownBases (run sampleOps) "WET" = .ok ["JMS", "flavio"] ∧
    knownBases (run sampleOps) "SMEFT" = .ok ["Warsaw"] ∧
    knownTranslatorsEFT (run (sampleOps.take 6)) "WET" = .ok [["WET", "JMS", "flavio"]] ∧
    knownTranslatorsBasis (run (sampleOps.take 6)) "WET" "JMS" = .ok ([["WET", "JMS", "flavio"]], []) :=
  ⟨rfl, rfl, rfl, rfl⟩

end Verif
