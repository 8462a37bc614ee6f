import Verif.Lemmas.WetClosed

/-! Tables of the WET translators that are inverse to each other. -/

set_option autoImplicit false

namespace Verif

variable {S : Type} {P : PEnv}

/-- Entry of the dictionary given by a table, 0 if absent. -/
noncomputable def bat (v : S → ℂ) (b : Block S) (k : String) : ℂ := Dict.getD (bval v b) k 0

theorem bat_mem {b : Block S} (hb : (bkeys b).Nodup) {k : String} {e : Ex S} (h : (k, e) ∈ b) (v : S → ℂ) : bat v b k = e.val v := by
  rw [bat, Dict.getD, find_bval hb h]; rfl

theorem exists_mem_of_bkeys {b : Block S} {k : String} (h : k ∈ bkeys b) : ∃ e, (k, e) ∈ b := by
  obtain ⟨p, hp, rfl⟩ := List.mem_map.1 h
  exact ⟨p.2, hp⟩

/-- An entry of a sequence of tables is found in the table that has its key. -/
theorem bat_flatten {bs : List (Block S)} (hn : (bkeys bs.flatten).Nodup) {b : Block S} (hb : b ∈ bs) {k : String}
    (hk : k ∈ bkeys b) (v : S → ℂ) : bat v bs.flatten k = bat v b k := by
  obtain ⟨e, he⟩ := exists_mem_of_bkeys hk
  have hb' : (bkeys b).Nodup := by
    rw [bkeys_flatten, List.nodup_flatMap] at hn
    exact hn.1 b hb
  rw [bat_mem hn (List.mem_flatten.2 ⟨b, hb, he⟩), bat_mem hb' he]

theorem bat_of_not_mem {b : Block S} {k : String} (hk : k ∉ bkeys b) (v : S → ℂ) : bat v b k = 0 := by
  rw [bat, Dict.getD, Dict.find_eq_none_iff.2 (by rw [keys_bval]; exact hk)]; rfl

theorem bval_comp' (v : S → ℂ) (b : Block S) (b' : Block String) : bval v (comp b b') = bval (bat v b) b' := bval_comp v b b'

theorem bat_comp (v : S → ℂ) (b : Block S) (b' : Block String) (k : String) : bat v (comp b b') k = bat (bat v b) b' k := by
  rw [bat, bval_comp']; rfl

theorem bat_congr {v w : S → ℂ} {b : Block S} (h : ∀ s ∈ bsources b, v s = w s) (k : String) : bat v b k = bat w b k := by
  rw [bat, bval_congr h]; rfl

theorem bat_scaleBy (v : S → ℂ) (c : ℂ) (b : Block S) (k : String) : bat v (scaleBy c b) k = c * bat v b k := by
  rw [bat, bval_scaleBy, Dict.getD, Dict.find_mapVals, bat, Dict.getD]
  cases Dict.find (bval v b) k <;> simp

theorem bat_divideBy (v : S → ℂ) (c : ℂ) (b : Block S) (k : String) : bat v (divideBy c b) k = bat v b k / c := by
  rw [bat, bval_divideBy, Dict.getD, Dict.find_mapVals, bat, Dict.getD]
  cases Dict.find (bval v b) k <;> simp

theorem bat_real (v : S → ℂ) (r : ℝ) (b : Block S) (k : String) : bat (fun s => (r : ℂ) * v s) b k = (r : ℂ) * bat v b k := by
  rw [bat, bval_real, Dict.getD, Dict.find_mapVals, bat, Dict.getD]
  cases Dict.find (bval v b) k <;> simp

theorem append_right_injective (y : String) : Function.Injective (fun x : String => x ++ y) := by
  intro a b h
  have : (a ++ y).toList = (b ++ y).toList := congrArg String.toList h
  rw [String.toList_append, String.toList_append] at this
  exact String.toList_injective (List.append_cancel_right this)

theorem append_left_injective (y : String) : Function.Injective (fun x : String => y ++ x) := by
  intro a b h
  have : (y ++ a).toList = (y ++ b).toList := congrArg String.toList h
  rw [String.toList_append, String.toList_append] at this
  exact String.toList_injective (List.append_cancel_left this)

theorem nodup_suffix {L : List String} (h : L.Nodup) (y : String) : (L.map (· ++ y)).Nodup := h.map (append_right_injective y)

theorem nodup_prefix {L : List String} (h : L.Nodup) (y : String) : (L.map (y ++ ·)).Nodup := h.map (append_left_injective y)

/-! ### Semileptonic operators -/

theorem nodup_fierzBernLep (ind : String) : (bkeys (fierzBernLepTable ind)).Nodup :=
  nodup_suffix (L := ["1", "3", "5", "7", "9", "1p", "3p", "5p", "7p", "9p", "nu1", "nu1p"]) (by decide +kernel) ind

theorem nodup_bernFierzLep (ind : String) : (bkeys (bernFierzLepTable ind)).Nodup :=
  nodup_prefix (L := ["9", "10", "S", "P", "T", "T5", "9p", "10p", "Sp", "Pp", "nu", "nup"]) (by decide +kernel) ("F" ++ ind)

theorem at_fierzBernLep (ind : String) (u : String → ℂ) : ∀ p ∈ fierzBernLepTable ind, bat u (fierzBernLepTable ind) p.1 = p.2.val u :=
  fun p hp => bat_mem (nodup_fierzBernLep ind) (k := p.1) (e := p.2) hp u

theorem at_bernFierzLep (ind : String) (u : String → ℂ) : ∀ p ∈ bernFierzLepTable ind, bat u (bernFierzLepTable ind) p.1 = p.2.val u :=
  fun p hp => bat_mem (nodup_bernFierzLep ind) (k := p.1) (e := p.2) hp u

/-- Fierz to Bern and back. -/
theorem lep_round (ind : String) (u : String → ℂ) : ∀ k ∈ bkeys (bernFierzLepTable ind),
    bat (bat u (fierzBernLepTable ind)) (bernFierzLepTable ind) k = u k := by
  intro k hk
  obtain ⟨e, he⟩ := exists_mem_of_bkeys hk
  rw [bat_mem (nodup_bernFierzLep ind) he]
  have h := at_fierzBernLep ind u
  generalize bat u (fierzBernLepTable ind) = w at h ⊢
  simp only [fierzBernLepTable, List.forall_mem_cons, Ex.val_add, Ex.val_sub, Ex.val_neg, Ex.val_mul, Ex.val_div, Ex.val_src] at h
  obtain ⟨h1, h2, h3, h4, h5, h6, h7, h8, h9, h10, h11, h12, -⟩ := h
  revert e k
  have key : ∀ p ∈ bernFierzLepTable ind, p.2.val w = u p.1 := by
    simp only [bernFierzLepTable, List.forall_mem_cons, Ex.val_add, Ex.val_sub, Ex.val_mul, Ex.val_div, Ex.val_src]
    rw [h1, h2, h3, h4, h5, h6, h7, h8, h9, h10, h11, h12]
    refine ⟨?_, ?_, ?_, ?_, ?_, ?_, ?_, ?_, ?_, ?_, ?_, ?_, by simp⟩ <;> ring
  intro k hk e he
  exact key _ he

/-- Bern to Fierz and back. -/
theorem lep_round' (ind : String) (u : String → ℂ) : ∀ k ∈ bkeys (fierzBernLepTable ind),
    bat (bat u (bernFierzLepTable ind)) (fierzBernLepTable ind) k = u k := by
  intro k hk
  obtain ⟨e, he⟩ := exists_mem_of_bkeys hk
  rw [bat_mem (nodup_fierzBernLep ind) he]
  have h := at_bernFierzLep ind u
  generalize bat u (bernFierzLepTable ind) = w at h ⊢
  simp only [bernFierzLepTable, List.forall_mem_cons, Ex.val_add, Ex.val_sub, Ex.val_mul, Ex.val_div, Ex.val_src] at h
  obtain ⟨h1, h2, h3, h4, h5, h6, h7, h8, h9, h10, h11, h12, -⟩ := h
  have key : ∀ p ∈ fierzBernLepTable ind, p.2.val w = u p.1 := by
    simp only [fierzBernLepTable, List.forall_mem_cons, Ex.val_add, Ex.val_sub, Ex.val_neg, Ex.val_mul, Ex.val_div, Ex.val_src]
    rw [h1, h2, h3, h4, h5, h6, h7, h8, h9, h10, h11, h12]
    refine ⟨?_, ?_, ?_, ?_, ?_, ?_, ?_, ?_, ?_, ?_, ?_, ?_, by simp⟩ <;> ring
  exact key _ he

/-- A table that undoes another one. -/
theorem table_round {b b' : Block String} (hb : (bkeys b).Nodup) (hb' : (bkeys b').Nodup) {u : String → ℂ} {Q : String → Prop}
    (key : ∀ w : String → ℂ, (∀ p ∈ b, w p.1 = p.2.val u) → ∀ p ∈ b', Q p.1 → p.2.val w = u p.1) :
    ∀ k ∈ bkeys b', Q k → bat (bat u b) b' k = u k := by
  intro k hk hQ
  obtain ⟨e, he⟩ := exists_mem_of_bkeys hk
  rw [bat_mem hb' he]
  exact key _ (fun p hp => bat_mem hb (k := p.1) (e := p.2) hp u) _ he hQ

/-! ### Dipoles -/

theorem nodup_fierzBernChrom (dd : String) (a b : ℝ) : (bkeys (fierzBernChromTable dd a b)).Nodup :=
  nodup_suffix (L := ["7gamma", "8g", "7pgamma", "8pg"]) (by decide +kernel) dd

theorem nodup_bernFierzChrom (dd : String) (a b : ℝ) : (bkeys (bernFierzChromTable dd a b)).Nodup :=
  nodup_suffix (L := ["F7gamma", "F8g", "F7pgamma", "F8pg"]) (by decide +kernel) dd

theorem nodup_fierzFlavioChrom (dd ddfl : String) (a b : ℝ) : (bkeys (fierzFlavioChromTable dd ddfl a b)).Nodup :=
  nodup_suffix (L := ["C7_", "C8_", "C7p_", "C8p_"]) (by decide +kernel) ddfl

theorem nodup_flavioFierzChrom (dd ddfl : String) (a b : ℝ) : (bkeys (flavioFierzChromTable dd ddfl a b)).Nodup :=
  nodup_suffix (L := ["F7gamma", "F8g", "F7pgamma", "F8pg"]) (by decide +kernel) dd

theorem nodup_divideBy {c : ℂ} {b : Block S} (h : (bkeys b).Nodup) : (bkeys (divideBy c b)).Nodup := by
  rw [bkeys_divideBy]; exact h

theorem nodup_scaleBy {c : ℂ} {b : Block S} (h : (bkeys b).Nodup) : (bkeys (scaleBy c b)).Nodup := by
  rw [bkeys_scaleBy]; exact h

section

variable {a b c : ℂ}

theorem chrom_round (dd : String) {a b : ℝ} (ha : a ≠ 0) (hb : b ≠ 0) (u : String → ℂ) : ∀ k ∈ bkeys (bernFierzChromTable dd a b),
    bat (bat u (fierzBernChromTable dd a b)) (bernFierzChromTable dd a b) k = u k := by
  have ha' : (a : ℂ) ≠ 0 := by exact_mod_cast ha
  have hb' : (b : ℂ) ≠ 0 := by exact_mod_cast hb
  refine fun k hk => table_round (Q := fun _ => True) (nodup_fierzBernChrom dd a b) (nodup_bernFierzChrom dd a b) ?_ k hk trivial
  intro w h
  simp only [fierzBernChromTable, bernFierzChromTable, List.forall_mem_cons, Ex.val_mul, Ex.val_div, Ex.val_src] at h ⊢
  obtain ⟨h1, h2, h3, h4, -⟩ := h
  rw [h1, h2, h3, h4]
  refine ⟨?_, ?_, ?_, ?_, by simp⟩ <;> intro _ <;> field_simp

theorem chrom_round' (dd : String) {a b : ℝ} (ha : a ≠ 0) (hb : b ≠ 0) (u : String → ℂ) : ∀ k ∈ bkeys (fierzBernChromTable dd a b),
    bat (bat u (bernFierzChromTable dd a b)) (fierzBernChromTable dd a b) k = u k := by
  have ha' : (a : ℂ) ≠ 0 := by exact_mod_cast ha
  have hb' : (b : ℂ) ≠ 0 := by exact_mod_cast hb
  refine fun k hk => table_round (Q := fun _ => True) (nodup_bernFierzChrom dd a b) (nodup_fierzBernChrom dd a b) ?_ k hk trivial
  intro w h
  simp only [fierzBernChromTable, bernFierzChromTable, List.forall_mem_cons, Ex.val_mul, Ex.val_div, Ex.val_src] at h ⊢
  obtain ⟨h1, h2, h3, h4, -⟩ := h
  rw [h1, h2, h3, h4]
  refine ⟨?_, ?_, ?_, ?_, by simp⟩ <;> intro _ <;> field_simp

theorem flChrom_round (dd ddfl : String) {a b : ℝ} {c : ℂ} (ha : a ≠ 0) (hb : b ≠ 0) (hc : c ≠ 0) (u : String → ℂ) :
    ∀ k ∈ bkeys (scaleBy c (fierzFlavioChromTable dd ddfl a b)),
    bat (bat u (divideBy c (flavioFierzChromTable dd ddfl a b))) (scaleBy c (fierzFlavioChromTable dd ddfl a b)) k = u k := by
  have ha' : (a : ℂ) ≠ 0 := by exact_mod_cast ha
  have hb' : (b : ℂ) ≠ 0 := by exact_mod_cast hb
  refine fun k hk => table_round (Q := fun _ => True) (nodup_divideBy (nodup_flavioFierzChrom dd ddfl a b))
    (nodup_scaleBy (nodup_fierzFlavioChrom dd ddfl a b)) ?_ k hk trivial
  intro w h
  simp only [flavioFierzChromTable, fierzFlavioChromTable, divideBy, scaleBy, List.map_cons, List.map_nil, List.forall_mem_cons,
    Ex.val_mul, Ex.val_div, Ex.val_src] at h ⊢
  obtain ⟨h1, h2, h3, h4, -⟩ := h
  rw [h1, h2, h3, h4]
  refine ⟨?_, ?_, ?_, ?_, by simp⟩ <;> intro _ <;> field_simp

theorem flChrom_round' (dd ddfl : String) {a b : ℝ} {c : ℂ} (ha : a ≠ 0) (hb : b ≠ 0) (hc : c ≠ 0) (u : String → ℂ) :
    ∀ k ∈ bkeys (divideBy c (flavioFierzChromTable dd ddfl a b)),
    bat (bat u (scaleBy c (fierzFlavioChromTable dd ddfl a b))) (divideBy c (flavioFierzChromTable dd ddfl a b)) k = u k := by
  have ha' : (a : ℂ) ≠ 0 := by exact_mod_cast ha
  have hb' : (b : ℂ) ≠ 0 := by exact_mod_cast hb
  refine fun k hk => table_round (Q := fun _ => True) (nodup_scaleBy (nodup_fierzFlavioChrom dd ddfl a b))
    (nodup_divideBy (nodup_flavioFierzChrom dd ddfl a b)) ?_ k hk trivial
  intro w h
  simp only [flavioFierzChromTable, fierzFlavioChromTable, divideBy, scaleBy, List.map_cons, List.map_nil, List.forall_mem_cons,
    Ex.val_mul, Ex.val_div, Ex.val_src] at h ⊢
  obtain ⟨h1, h2, h3, h4, -⟩ := h
  rw [h1, h2, h3, h4]
  refine ⟨?_, ?_, ?_, ?_, by simp⟩ <;> intro _ <;> field_simp

/-! ### Semileptonic operators in flavio -/

theorem nodup_flavioFierzLep (ind indfl indnu : String) (a b c : ℝ) : (bkeys (flavioFierzLepTable ind indfl indnu a b c)).Nodup :=
  nodup_prefix (L := ["9", "9p", "10", "10p", "S", "Sp", "P", "Pp", "nu", "nup", "T", "T5"]) (by decide +kernel) ("F" ++ ind)

theorem flLep_round (ind indfl indnu : String) {a b c : ℝ} {d : ℂ} (ha : a ≠ 0) (hb : b ≠ 0) (hc : c ≠ 0) (hd : d ≠ 0)
    (u : String → ℂ) (hn : (bkeys (fierzFlavioNuTable ind indnu a ++ fierzFlavioLepTable ind indfl b c)).Nodup) :
    ∀ k ∈ bkeys (scaleBy d (fierzFlavioNuTable ind indnu a ++ fierzFlavioLepTable ind indfl b c)),
    bat (bat u (divideBy d (flavioFierzLepTable ind indfl indnu a b c)))
      (scaleBy d (fierzFlavioNuTable ind indnu a ++ fierzFlavioLepTable ind indfl b c)) k = u k := by
  have ha' : (a : ℂ) ≠ 0 := by exact_mod_cast ha
  have hb' : (b : ℂ) ≠ 0 := by exact_mod_cast hb
  have hc' : (c : ℂ) ≠ 0 := by exact_mod_cast hc
  refine fun k hk => table_round (Q := fun _ => True) (nodup_divideBy (nodup_flavioFierzLep ind indfl indnu a b c))
    (nodup_scaleBy hn) ?_ k hk trivial
  intro w h
  simp only [flavioFierzLepTable, fierzFlavioLepTable, fierzFlavioNuTable, List.cons_append, List.nil_append, divideBy, scaleBy,
    List.map_cons, List.map_nil, List.forall_mem_cons, Ex.val_mul, Ex.val_div, Ex.val_src] at h ⊢
  obtain ⟨h1, h2, h3, h4, h5, h6, h7, h8, h9, h10, -⟩ := h
  rw [h1, h2, h3, h4, h5, h6, h7, h8, h9, h10]
  refine ⟨?_, ?_, ?_, ?_, ?_, ?_, ?_, ?_, ?_, ?_, by simp⟩ <;> intro _ <;> field_simp

theorem flLep_round' (ind indfl indnu : String) {a b c : ℝ} {d : ℂ} (ha : a ≠ 0) (hb : b ≠ 0) (hc : c ≠ 0) (hd : d ≠ 0)
    (u : String → ℂ) (hn : (bkeys (fierzFlavioNuTable ind indnu a ++ fierzFlavioLepTable ind indfl b c)).Nodup) :
    let u' := bat (bat u (scaleBy d (fierzFlavioNuTable ind indnu a ++ fierzFlavioLepTable ind indfl b c)))
      (divideBy d (flavioFierzLepTable ind indfl indnu a b c))
    (∀ n ∈ ["9", "9p", "10", "10p", "S", "Sp", "P", "Pp", "nu", "nup"], u' ("F" ++ ind ++ n) = u ("F" ++ ind ++ n)) ∧
      u' ("F" ++ ind ++ "T") = 0 ∧ u' ("F" ++ ind ++ "T5") = 0 := by
  have ha' : (a : ℂ) ≠ 0 := by exact_mod_cast ha
  have hb' : (b : ℂ) ≠ 0 := by exact_mod_cast hb
  have hc' : (c : ℂ) ≠ 0 := by exact_mod_cast hc
  intro u'
  have h : ∀ p ∈ scaleBy d (fierzFlavioNuTable ind indnu a ++ fierzFlavioLepTable ind indfl b c),
      bat u (scaleBy d (fierzFlavioNuTable ind indnu a ++ fierzFlavioLepTable ind indfl b c)) p.1 = p.2.val u :=
    fun p hp => bat_mem (nodup_scaleBy hn) (k := p.1) (e := p.2) hp u
  have h' : ∀ p ∈ divideBy d (flavioFierzLepTable ind indfl indnu a b c), u' p.1 = p.2.val _ :=
    fun p hp => bat_mem (nodup_divideBy (nodup_flavioFierzLep ind indfl indnu a b c)) (k := p.1) (e := p.2) hp _
  generalize bat u (scaleBy d (fierzFlavioNuTable ind indnu a ++ fierzFlavioLepTable ind indfl b c)) = w at h h'
  clear_value u'
  simp only [flavioFierzLepTable, fierzFlavioLepTable, fierzFlavioNuTable, List.cons_append, List.nil_append, divideBy, scaleBy,
    List.map_cons, List.map_nil, List.forall_mem_cons, Ex.val_mul, Ex.val_div, Ex.val_src, Ex.val_zero, zero_div] at h h' ⊢
  obtain ⟨h1, h2, h3, h4, h5, h6, h7, h8, h9, h10, -⟩ := h
  obtain ⟨g1, g2, g3, g4, g5, g6, g7, g8, g9, g10, g11, g12, -⟩ := h'
  rw [g1, g2, g3, g4, g5, g6, g7, g8, g9, g10, g11, g12, h1, h2, h3, h4, h5, h6, h7, h8, h9, h10]
  refine ⟨⟨?_, ?_, ?_, ?_, ?_, ?_, ?_, ?_, ?_, ?_, by simp⟩, rfl, rfl⟩ <;> field_simp

/-- Fierz coefficients without their tensor part, read off Bern coefficients and translated back. -/
theorem lep_tensor (ind : String) (u F : String → ℂ)
    (hF : ∀ n ∈ ["9", "9p", "10", "10p", "S", "Sp", "P", "Pp", "nu", "nup"],
      F ("F" ++ ind ++ n) = bat u (bernFierzLepTable ind) ("F" ++ ind ++ n))
    (hT : F ("F" ++ ind ++ "T") = 0) (hT5 : F ("F" ++ ind ++ "T5") = 0) :
    (∀ n ∈ ["1", "3", "5", "9", "1p", "3p", "5p", "9p", "nu1", "nu1p"],
      bat F (fierzBernLepTable ind) (n ++ ind) = u (n ++ ind)) ∧
    bat F (fierzBernLepTable ind) ("7" ++ ind) = 16 * u ("9" ++ ind) ∧
    bat F (fierzBernLepTable ind) ("7p" ++ ind) = 16 * u ("9p" ++ ind) := by
  have h := at_bernFierzLep ind u
  have h' := at_fierzBernLep ind F
  generalize bat u (bernFierzLepTable ind) = w at h hF
  generalize bat F (fierzBernLepTable ind) = r at h'
  simp only [fierzBernLepTable, bernFierzLepTable, List.forall_mem_cons, Ex.val_add, Ex.val_sub, Ex.val_neg, Ex.val_mul, Ex.val_div,
    Ex.val_src] at h h' hF ⊢
  obtain ⟨h1, h2, h3, h4, h5, h6, h7, h8, h9, h10, h11, h12, -⟩ := h
  obtain ⟨g1, g2, g3, g4, g5, g6, g7, g8, g9, g10, g11, g12, -⟩ := h'
  obtain ⟨f1, f2, f3, f4, f5, f6, f7, f8, f9, f10, -⟩ := hF
  rw [g1, g2, g3, g4, g5, g6, g7, g8, g9, g10, g11, g12, f1, f2, f3, f4, f5, f6, f7, f8, f9, f10, hT, hT5, h1, h2, h3, h4, h7, h8, h9, h10,
    h11, h12]
  refine ⟨⟨?_, ?_, ?_, ?_, ?_, ?_, ?_, ?_, ?_, ?_, by simp⟩, ?_, ?_⟩ <;> ring

/-! ### Class I and II -/

theorem nodup_bernFlavioI (qq qqf : String) : (bkeys (bernFlavioITable qq qqf)).Nodup :=
  nodup_suffix (L := ["CVLL_", "CSLL_", "CTLL_", "CVLR_", "CVRR_", "CSRR_", "CTRR_", "CSLR_"]) (by decide +kernel) (qqf ++ qqf)

theorem nodup_flavioBernI (qq qqb : String) : (bkeys (flavioBernITable qq qqb)).Nodup :=
  nodup_suffix (L := ["1", "2", "3", "4", "5", "1p", "2p", "3p"]) (by decide +kernel) (qqb ++ qqb)

theorem I_round (qq qqb : String) (u : String → ℂ) : ∀ k ∈ bkeys (bernFlavioITable qqb qq),
    bat (bat u (flavioBernITable qq qqb)) (bernFlavioITable qqb qq) k = u k := by
  refine fun k hk => table_round (Q := fun _ => True) (nodup_flavioBernI qq qqb) (nodup_bernFlavioI qqb qq) ?_ k hk trivial
  intro w h
  simp only [flavioBernITable, bernFlavioITable, List.forall_mem_cons, Ex.val_mul, Ex.val_sub, Ex.val_src] at h ⊢
  obtain ⟨h1, h2, h3, h4, h5, h6, h7, h8, -⟩ := h
  rw [h1, h2, h3, h4, h5, h6, h7, h8]
  refine ⟨?_, ?_, ?_, ?_, ?_, ?_, ?_, ?_, by simp⟩ <;> intro _ <;> ring

theorem I_round' (qq qqb : String) (u : String → ℂ) : ∀ k ∈ bkeys (flavioBernITable qq qqb),
    bat (bat u (bernFlavioITable qqb qq)) (flavioBernITable qq qqb) k = u k := by
  refine fun k hk => table_round (Q := fun _ => True) (nodup_bernFlavioI qqb qq) (nodup_flavioBernI qq qqb) ?_ k hk trivial
  intro w h
  simp only [flavioBernITable, bernFlavioITable, List.forall_mem_cons, Ex.val_mul, Ex.val_sub, Ex.val_src] at h ⊢
  obtain ⟨h1, h2, h3, h4, h5, h6, h7, h8, -⟩ := h
  rw [h1, h2, h3, h4, h5, h6, h7, h8]
  refine ⟨?_, ?_, ?_, ?_, ?_, ?_, ?_, ?_, by simp⟩ <;> intro _ <;> ring

theorem nodup_bernFlavioII (ind ind2 : String) : (bkeys (bernFlavioIITable ind ind2)).Nodup :=
  nodup_suffix (L := ["CVL_", "CVR_", "CSR_", "CSL_", "CT_"]) (by decide +kernel) ind2

theorem nodup_flavioBernII (ind ind2 : String) : (bkeys (flavioBernIITable ind ind2)).Nodup :=
  nodup_suffix (L := ["1", "1p", "5", "5p", "7p"]) (by decide +kernel) ind

theorem II_round (ind ind2 : String) {c : ℂ} (hc : c ≠ 0) (u : String → ℂ) : ∀ k ∈ bkeys (scaleBy c (bernFlavioIITable ind ind2)),
    bat (bat u (divideBy c (flavioBernIITable ind ind2))) (scaleBy c (bernFlavioIITable ind ind2)) k = u k := by
  refine fun k hk => table_round (Q := fun _ => True) (nodup_divideBy (nodup_flavioBernII ind ind2))
    (nodup_scaleBy (nodup_bernFlavioII ind ind2)) ?_ k hk trivial
  intro w h
  simp only [flavioBernIITable, bernFlavioIITable, divideBy, scaleBy, List.map_cons, List.map_nil, List.forall_mem_cons,
    Ex.val_mul, Ex.val_div, Ex.val_src] at h ⊢
  obtain ⟨h1, h2, h3, h4, h5, -⟩ := h
  rw [h1, h2, h3, h4, h5]
  refine ⟨?_, ?_, ?_, ?_, ?_, by simp⟩ <;> intro _ <;> field_simp

theorem II_round' (ind ind2 : String) {c : ℂ} (hc : c ≠ 0) (u : String → ℂ) : ∀ k ∈ bkeys (divideBy c (flavioBernIITable ind ind2)),
    bat (bat u (scaleBy c (bernFlavioIITable ind ind2))) (divideBy c (flavioBernIITable ind ind2)) k = u k := by
  refine fun k hk => table_round (Q := fun _ => True) (nodup_scaleBy (nodup_bernFlavioII ind ind2))
    (nodup_divideBy (nodup_flavioBernII ind ind2)) ?_ k hk trivial
  intro w h
  simp only [flavioBernIITable, bernFlavioIITable, divideBy, scaleBy, List.map_cons, List.map_nil, List.forall_mem_cons,
    Ex.val_mul, Ex.val_div, Ex.val_src] at h ⊢
  obtain ⟨h1, h2, h3, h4, h5, -⟩ := h
  rw [h1, h2, h3, h4, h5]
  refine ⟨?_, ?_, ?_, ?_, ?_, by simp⟩ <;> intro _ <;> field_simp

end

end Verif
