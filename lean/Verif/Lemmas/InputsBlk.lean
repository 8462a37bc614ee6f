import Verif.Lemmas.Inputs

/-! Dependence of the WET translators on the parameters. -/

set_option autoImplicit false
set_option Elab.async false

namespace Verif

open Spec

variable {P P' : PEnv} {I : String → Option (List Input)}

theorem two_of_three {qq : String} (hq : qq ∈ ["sb", "db"]) : qq ∈ ["sb", "db", "ds"] := by simp at hq ⊢; tauto

/-- Class II. -/
def ckII (I : String → Option (List Input)) (x n : String) : Bool :=
  match flavII x with
  | .ok (u, d, _, _) => hasInputs I n [.GF, .V u d]
  | .error _ => false

theorem prefII_of {x n : String} {u d l lp : Fin 3} (hx : flavII x = .ok (u, d, l, lp)) (c : ckII I x n = true)
    (h : SameInputs I P P' n) : (prefIIv P u d : ℂ) = prefIIv P' u d := by
  unfold ckII at c
  rw [hx] at c
  rw [prefIIv_same (h.all c)]

section

variable (hP : Spec.Admissible P) (hP' : Spec.Admissible P')
include hP hP'

theorem agr_bernFlavioII {x : String} (hx : x ∈ namesII) (c : ∀ n ∈ keysFlII x, ckII I x n = true) :
    Agr (SameInputs I P P') (okOr (bernFlavioII P x)) (okOr (bernFlavioII P' x)) := by
  obtain ⟨u, d, l, lp, -, -, h⟩ := jmsBernII_eq hx
  rw [bernFlavioII_eq hP h, bernFlavioII_eq hP' h, okOr_ok, okOr_ok]
  exact (Agr.refl _ _).scaleBy fun n hn hs => prefII_of h (c n hn) hs

theorem agr_flavioBernII {x : String} (hx : x ∈ namesII) (c : ∀ n ∈ keysIIb x, ckII I x n = true) :
    Agr (SameInputs I P P') (okOr (flavioBernII P x)) (okOr (flavioBernII P' x)) := by
  obtain ⟨u, d, l, lp, -, -, h⟩ := jmsBernII_eq hx
  rw [flavioBernII_eq hP h, flavioBernII_eq hP' h, okOr_ok, okOr_ok]
  exact (Agr.refl _ _).divideBy fun n hn hs => prefII_of h (c n hn) hs

theorem agr_bernEosII {x : String} (hx : x ∈ namesII) (c : ∀ n ∈ bkeys (bernEosIITable (indII x) (indIIeos x)), ckII I x n = true) :
    Agr (SameInputs I P P') (okOr (bernEosII P x)) (okOr (bernEosII P' x)) := by
  obtain ⟨u, d, l, lp, -, -, h⟩ := jmsBernII_eq hx
  rw [bernEosII_eq hP h, bernEosII_eq hP' h, okOr_ok, okOr_ok]
  exact (Agr.refl _ _).scaleBy fun n hn hs => prefII_of h (c n hn) hs

/-- Semileptonic operators of flavio. -/
theorem agr_fierzFlavioLep {qq x : String} (hq : qq ∈ ["sb", "db", "ds"]) (hx : x ∈ namesLep qq)
    (cn : ∀ n ∈ keysFlNu x, hasInputs I n (.alpha_e :: .GF :: xiInputs qq) = true) :
    Agr (SameInputs I P P') (okOr (fierzFlavioLep P x false)) (okOr (fierzFlavioLep P' x false)) ∧
    ((∀ n ∈ keysFlLep x, hasInputs I n (.alpha_e :: .GF :: xiInputs qq) = true) →
      (∀ n ∈ keysFlScalar (indLepFl x), hasInputs I n [.alpha_e, .m_b] = true) →
      Agr (SameInputs I P P') (okOr (fierzFlavioLep P x true)) (okOr (fierzFlavioLep P' x true))) := by
  obtain ⟨h1, h2⟩ := fierzFlavioLep_eq hP hq hx
  obtain ⟨h1', h2'⟩ := fierzFlavioLep_eq hP' hq hx
  rw [h1, h2, h1', h2', okOr_ok, okOr_ok, okOr_ok, okOr_ok]
  have hnu : Agr (SameInputs I P P') (fierzFlavioNuTable (indLep x) (indNuFl x) (k8v P)) (fierzFlavioNuTable (indLep x) (indNuFl x) (k8v P')) :=
    agr_nuTable _ _ fun n hn hs => k8v_same fun q hq => hs.all (cn n hn) q (by simp_all)
  have hpre : ∀ n, hasInputs I n (.alpha_e :: .GF :: xiInputs qq) = true → SameInputs I P P' n →
      (prefXiv P (xiv P qq) : ℂ) = prefXiv P' (xiv P' qq) :=
    fun n hn hs => prefXiv_same fun q hq => hs.all hn q (List.mem_cons_of_mem _ hq)
  refine ⟨hnu.scaleBy fun n hn hs => hpre n (cn n hn) hs, fun cl cs => ?_⟩
  refine (hnu.append (agr_lepTable _ _ (fun n hn hs => k16v_same fun q hq => ?_) fun n hn hs => kSv_same fun q hq => ?_)).scaleBy
    fun n hn hs => hpre n ?_ hs
  · refine hs.all (cl n ?_) q (by simp_all)
    simp only [keysFlLep, List.map_cons, List.map_nil, List.mem_cons, List.not_mem_nil, or_false] at hn ⊢
    tauto
  · exact hs.all (cs n hn) q hq
  · have : n ∈ keysFlNu x ++ keysFlLep x := hn
    rcases List.mem_append.1 this with h | h
    · exact cn n h
    · exact cl n h

/-- Dipoles of flavio. -/
theorem agr_fierzFlavioChrom {qq : String} (hq : qq ∈ ["sb", "db", "ds"])
    (c : ∀ n ∈ keysFlChrom (pyRev qq), hasInputs I n (.GF :: xiInputs qq) = true)
    (c7 : ∀ n ∈ ["C7_" ++ pyRev qq, "C7p_" ++ pyRev qq], hasInputs I n [.alpha_e, .m_b] = true)
    (c8 : ∀ n ∈ ["C8_" ++ pyRev qq, "C8p_" ++ pyRev qq], hasInputs I n [.alpha_s, .m_b] = true) :
    Agr (SameInputs I P P') (okOr (fierzFlavioChrom P qq)) (okOr (fierzFlavioChrom P' qq)) := by
  rw [fierzFlavioChrom_eq hP hq, fierzFlavioChrom_eq hP' hq, okOr_ok, okOr_ok]
  exact (agr_flavioChromTable _ _ (fun n hn hs => k7v_same (hs.all (c7 n hn))) fun n hn hs => k7gv_same (hs.all (c8 n hn))).scaleBy
    fun n hn hs => prefXiv_same (hs.all (c n hn))

theorem agr_fierzBernChrom (qq : String)
    (c7 : ∀ n ∈ ["7gamma" ++ qq, "7pgamma" ++ qq], hasInputs I n [.alpha_e, .alpha_s, .m_b] = true)
    (c8 : ∀ n ∈ ["8g" ++ qq, "8pg" ++ qq], hasInputs I n [.alpha_s, .m_b] = true) :
    Agr (SameInputs I P P') (okOr (fierzBernChrom P qq)) (okOr (fierzBernChrom P' qq)) := by
  rw [fierzBernChrom_eq hP, fierzBernChrom_eq hP', okOr_ok, okOr_ok]
  exact agr_bernChromTable _ (fun n hn hs => kgv_same (hs.all (c7 n hn))) fun n hn hs => kgsv_same (hs.all (c8 n hn))

/-- Inputs of the entries in the Fierz basis: semileptonic, from flavio. -/
def fierzLepI (qq x : String) (k : String) : Option (List Input) :=
  if k ∈ ["9", "9p", "10", "10p", "nu", "nup"].map (fun o => "F" ++ indLep x ++ o) then some (.alpha_e :: .GF :: xiInputs qq)
  else if k ∈ ["S", "Sp", "P", "Pp"].map (fun o => "F" ++ indLep x ++ o) then some (.alpha_e :: .m_b :: .GF :: xiInputs qq)
  else some (.GF :: xiInputs qq)

omit hP hP' in
theorem fierzLepI_pre {qq x k : String} (h : SameInputs (fierzLepI qq x) P P' k) : ∀ q ∈ .GF :: xiInputs qq, q.Same P P' := by
  obtain ⟨l, h1, h2⟩ := h
  unfold fierzLepI at h1
  split_ifs at h1
  all_goals injection h1 with h1; subst h1
  · exact fun q hq => h2 q (List.mem_cons_of_mem _ hq)
  · exact fun q hq => h2 q (List.mem_cons_of_mem _ (List.mem_cons_of_mem _ hq))
  · exact h2

omit hP hP' in
theorem fierzLepI_names : ∀ qq ∈ ["sb", "db", "ds"], ∀ x ∈ namesLep qq,
    (∀ o ∈ ["9", "9p", "10", "10p", "nu", "nup"], hasInput (fierzLepI qq x) ("F" ++ indLep x ++ o) .alpha_e = true) ∧
    (∀ o ∈ ["S", "Sp", "P", "Pp"], hasInputs (fierzLepI qq x) ("F" ++ indLep x ++ o) [.alpha_e, .m_b] = true) := by
  decide +kernel

theorem agr_flavioFierzLep {qq x : String} (hq : qq ∈ ["sb", "db", "ds"]) (hx : x ∈ namesLep qq) :
    Agr (SameInputs (fierzLepI qq x) P P') (okOr (flavioFierzLep P x)) (okOr (flavioFierzLep P' x)) := by
  obtain ⟨c1, c2⟩ := fierzLepI_names qq hq x hx
  simp only [List.forall_mem_cons, List.not_mem_nil, IsEmpty.forall_iff, forall_const, and_true] at c1 c2
  obtain ⟨a1, a2, a3, a4, a5, a6⟩ := c1
  obtain ⟨b1, b2, b3, b4⟩ := c2
  rw [flavioFierzLep_eq hP hq hx, flavioFierzLep_eq hP' hq hx, okOr_ok, okOr_ok]
  refine (agr_flavioFierzTable _ _ _ (fun n hn hs => k8v_same fun q hq => ?_) (fun n hn hs => k16v_same fun q hq => ?_)
    (fun n hn hs => kSv_same fun q hq => ?_)).divideBy fun n hn hs => prefXiv_same (fierzLepI_pre hs)
  · rw [List.mem_singleton] at hq
    subst hq
    refine hs.of ?_
    simp only [List.mem_cons, List.not_mem_nil, or_false] at hn
    rcases hn with rfl | rfl
    exacts [a5, a6]
  · rw [List.mem_singleton] at hq
    subst hq
    refine hs.of ?_
    simp only [List.mem_cons, List.not_mem_nil, or_false] at hn
    rcases hn with rfl | rfl | rfl | rfl
    exacts [a1, a2, a3, a4]
  · refine hs.all ?_ q hq
    simp only [List.mem_cons, List.not_mem_nil, or_false] at hn
    rcases hn with rfl | rfl | rfl | rfl
    exacts [b1, b2, b3, b4]

/-- Inputs of the dipoles in the Fierz basis, from flavio and from Bern. -/
def fierzChromI (pre a b : List Input) (qq : String) (k : String) : Option (List Input) :=
  if k ∈ ["F7gamma" ++ qq, "F7pgamma" ++ qq] then some (pre ++ a)
  else if k ∈ ["F8g" ++ qq, "F8pg" ++ qq] then some (pre ++ b)
  else some pre

theorem agr_bernFierzChrom {qq : String} (hq : qq ∈ ["sb", "db", "ds"]) :
    Agr (SameInputs (fierzChromI [] [.alpha_e, .alpha_s, .m_b] [.alpha_s, .m_b] qq) P P')
      (okOr (bernFierzChrom P qq)) (okOr (bernFierzChrom P' qq)) := by
  have c : ∀ qq ∈ ["sb", "db", "ds"],
      (∀ n ∈ ["F7gamma" ++ qq, "F7pgamma" ++ qq], hasInputs (fierzChromI [] [.alpha_e, .alpha_s, .m_b] [.alpha_s, .m_b] qq) n
        [.alpha_e, .alpha_s, .m_b] = true) ∧
      (∀ n ∈ ["F8g" ++ qq, "F8pg" ++ qq], hasInputs (fierzChromI [] [.alpha_e, .alpha_s, .m_b] [.alpha_s, .m_b] qq) n
        [.alpha_s, .m_b] = true) := by decide +kernel
  rw [bernFierzChrom_eq hP, bernFierzChrom_eq hP', okOr_ok, okOr_ok]
  exact agr_bernFierzChromTable _ (fun n hn hs => kgv_same (hs.all ((c qq hq).1 n hn)))
    fun n hn hs => kgsv_same (hs.all ((c qq hq).2 n hn))

theorem agr_flavioFierzChrom {qq : String} (hq : qq ∈ ["sb", "db", "ds"]) :
    Agr (SameInputs (fierzChromI (.GF :: xiInputs qq) [.alpha_e, .m_b] [.alpha_s, .m_b] qq) P P')
      (okOr (flavioFierzChrom P qq)) (okOr (flavioFierzChrom P' qq)) := by
  have c : ∀ qq ∈ ["sb", "db", "ds"],
      (∀ n ∈ ["F7gamma" ++ qq, "F7pgamma" ++ qq], hasInputs (fierzChromI (.GF :: xiInputs qq) [.alpha_e, .m_b] [.alpha_s, .m_b] qq) n
        [.alpha_e, .m_b] = true) ∧
      (∀ n ∈ ["F8g" ++ qq, "F8pg" ++ qq], hasInputs (fierzChromI (.GF :: xiInputs qq) [.alpha_e, .m_b] [.alpha_s, .m_b] qq) n
        [.alpha_s, .m_b] = true) ∧
      (∀ n ∈ ["F7gamma" ++ qq, "F8g" ++ qq, "F7pgamma" ++ qq, "F8pg" ++ qq],
        hasInputs (fierzChromI (.GF :: xiInputs qq) [.alpha_e, .m_b] [.alpha_s, .m_b] qq) n (.GF :: xiInputs qq) = true) := by
    decide +kernel
  rw [flavioFierzChrom_eq hP hq, flavioFierzChrom_eq hP' hq, okOr_ok, okOr_ok]
  exact (agr_flavioFierzChromTable _ _ (fun n hn hs => k7v_same (hs.all ((c qq hq).1 n hn)))
    fun n hn hs => k7gv_same (hs.all ((c qq hq).2.1 n hn))).divideBy fun n hn hs => prefXiv_same (hs.all ((c qq hq).2.2 n hn))

/-! ### Translators -/

omit hP hP' in
theorem cons_flatten {S : Type} {ok : String → Prop} {b b' : Block S} {l l' : List (Block S)} (h : Agr ok b b') (hl : Agr ok l.flatten l'.flatten) :
    Agr ok (b :: l).flatten (b' :: l').flatten := by
  rw [List.flatten_cons, List.flatten_cons]; exact h.append hl

/-- Checks for the semileptonic operators and dipoles of flavio. -/
def ckFlavio (I : String → Option (List Input)) : Prop :=
  (∀ x ∈ namesII, ∀ n ∈ keysFlII x, ckII I x n = true) ∧
  (∀ qq ∈ ["sb", "db", "ds"], ∀ x ∈ namesLep qq, ∀ n ∈ keysFlNu x, hasInputs I n (.alpha_e :: .GF :: xiInputs qq) = true) ∧
  (∀ qq ∈ ["sb", "db"], ∀ x ∈ namesLep qq, (∀ n ∈ keysFlLep x, hasInputs I n (.alpha_e :: .GF :: xiInputs qq) = true) ∧
    (∀ n ∈ keysFlScalar (indLepFl x), hasInputs I n [.alpha_e, .m_b] = true)) ∧
  (∀ qq ∈ ["sb", "db"], (∀ n ∈ keysFlChrom (pyRev qq), hasInputs I n (.GF :: xiInputs qq) = true) ∧
    (∀ n ∈ ["C7_" ++ pyRev qq, "C7p_" ++ pyRev qq], hasInputs I n [.alpha_e, .m_b] = true) ∧
    (∀ n ∈ ["C8_" ++ pyRev qq, "C8p_" ++ pyRev qq], hasInputs I n [.alpha_s, .m_b] = true))

instance (I : String → Option (List Input)) : Decidable (ckFlavio I) := by unfold ckFlavio; infer_instance

theorem agr_jmsFlavio : Agr (SameInputs flavioInputs P P') (blkJmsFlavio P).flatten (blkJmsFlavio P').flatten := by
  have c : ckFlavio flavioInputs := by refine ⟨?_, ?_, ?_, ?_⟩ <;> decide +kernel
  obtain ⟨c1, c2, c3, c4⟩ := c
  unfold blkJmsFlavio
  refine (((Agr.refl _ _).flatten_append (Agr.flatten_map _ fun x hx => ?_)).flatten_append (Agr.flatten_flatMap _ fun l hl => ?_)).flatten_append ?_
  · exact Agr.comp_left _ (agr_bernFlavioII hP hP' hx (c1 x hx))
  · have t : ∀ qq ∈ ["sb", "db"], Agr (SameInputs flavioInputs P P') (okOr (fierzFlavioLep P (nameLep qq l) true))
        (okOr (fierzFlavioLep P' (nameLep qq l) true)) := fun qq hq =>
      (agr_fierzFlavioLep hP hP' (two_of_three hq) (mem_namesLep qq hl) (c2 qq (two_of_three hq) _ (mem_namesLep qq hl))).2
        (c3 qq hq _ (mem_namesLep qq hl)).1 (c3 qq hq _ (mem_namesLep qq hl)).2
    exact cons_flatten (Agr.comp_left _ (t "sb" (by simp))) <| cons_flatten (Agr.comp_left _ (t "db" (by simp))) <|
      cons_flatten (Agr.comp_left _ (agr_fierzFlavioLep hP hP' (by simp) (mem_namesLep "ds" hl) (c2 "ds" (by simp) _ (mem_namesLep "ds" hl))).1)
        (Agr.refl _ _)
  · have t : ∀ qq ∈ ["sb", "db"], Agr (SameInputs flavioInputs P P') (okOr (fierzFlavioChrom P qq)) (okOr (fierzFlavioChrom P' qq)) :=
      fun qq hq => agr_fierzFlavioChrom hP hP' (two_of_three hq) (c4 qq hq).1 (c4 qq hq).2.1 (c4 qq hq).2.2
    exact cons_flatten (Agr.comp_left _ (t "sb" (by simp))) <| cons_flatten (Agr.comp_left _ (t "db" (by simp))) (Agr.refl _ _)

theorem agr_jmsBern : Agr (SameInputs bernInputs P P') (blkJmsBern P).flatten (blkJmsBern P').flatten := by
  have c : ∀ qq ∈ ["sb", "db", "ds"], (∀ n ∈ ["7gamma" ++ qq, "7pgamma" ++ qq], hasInputs bernInputs n [.alpha_e, .alpha_s, .m_b] = true) ∧
      (∀ n ∈ ["8g" ++ qq, "8pg" ++ qq], hasInputs bernInputs n [.alpha_s, .m_b] = true) := by decide +kernel
  have t : ∀ qq ∈ ["sb", "db", "ds"], Agr (SameInputs bernInputs P P') (okOr (fierzBernChrom P qq)) (okOr (fierzBernChrom P' qq)) :=
    fun qq hq => agr_fierzBernChrom hP hP' qq (c qq hq).1 (c qq hq).2
  unfold blkJmsBern
  exact (Agr.refl _ _).flatten_append <| cons_flatten (Agr.comp_left _ (t "sb" (by simp))) <|
    cons_flatten (Agr.comp_left _ (t "db" (by simp))) <| cons_flatten (Agr.comp_left _ (t "ds" (by simp))) (Agr.refl _ _)

theorem agr_bernFlavio : Agr (SameInputs bernFlavioInputs P P') (blkBernFlavio P).flatten (blkBernFlavio P').flatten := by
  have c : ckFlavio bernFlavioInputs := by refine ⟨?_, ?_, ?_, ?_⟩ <;> decide +kernel
  obtain ⟨c1, c2, c3, c4⟩ := c
  have c5 : ∀ qq ∈ ["sb", "db"], ∀ e ∈ mFierzFlavioChrom qq, ∀ m ∈ e.2,
      subInputs bernFlavioInputs e.1 (fierzChromI [] [.alpha_e, .alpha_s, .m_b] [.alpha_s, .m_b] qq) m.2 = true := by decide +kernel
  unfold blkBernFlavio
  refine (((Agr.refl _ _).flatten_append (Agr.flatten_map _ fun x hx => ?_)).flatten_append (Agr.flatten_flatMap _ fun l hl => ?_)).flatten_append ?_
  · exact agr_bernFlavioII hP hP' hx (c1 x hx)
  · have t : ∀ qq ∈ ["sb", "db"], Agr (SameInputs bernFlavioInputs P P') (okOr (fierzFlavioLep P (nameLep qq l) true))
        (okOr (fierzFlavioLep P' (nameLep qq l) true)) := fun qq hq =>
      (agr_fierzFlavioLep hP hP' (two_of_three hq) (mem_namesLep qq hl) (c2 qq (two_of_three hq) _ (mem_namesLep qq hl))).2
        (c3 qq hq _ (mem_namesLep qq hl)).1 (c3 qq hq _ (mem_namesLep qq hl)).2
    exact cons_flatten (Agr.comp_left _ (t "sb" (by simp))) <| cons_flatten (Agr.comp_left _ (t "db" (by simp))) <|
      cons_flatten (Agr.comp_left _ (agr_fierzFlavioLep hP hP' (by simp) (mem_namesLep "ds" hl) (c2 "ds" (by simp) _ (mem_namesLep "ds" hl))).1)
        (Agr.refl _ _)
  · have t : ∀ qq ∈ ["sb", "db"], Agr (SameInputs bernFlavioInputs P P') (comp (okOr (bernFierzChrom P qq)) (okOr (fierzFlavioChrom P qq)))
        (comp (okOr (bernFierzChrom P' qq)) (okOr (fierzFlavioChrom P' qq))) := by
      intro qq hq
      have hq3 : qq ∈ ["sb", "db", "ds"] := two_of_three hq
      refine Agr.comp (agr_bernFierzChrom hP hP' hq3) (agr_fierzFlavioChrom hP hP' hq3 (c4 qq hq).1 (c4 qq hq).2.1 (c4 qq hq).2.2) ?_
      rw [bmarks_fierzFlavioChrom hP hq3]
      exact fun e he hs m hm => hs.sub (c5 qq hq e he m hm)
    exact cons_flatten (t "sb" (by simp)) <| cons_flatten (t "db" (by simp)) (Agr.refl _ _)

theorem agr_flavioBern : Agr (SameInputs flavioBernInputs P P') (blkFlavioBern P).flatten (blkFlavioBern P').flatten := by
  have c1 : ∀ x ∈ namesII, ∀ n ∈ keysIIb x, ckII flavioBernInputs x n = true := by decide +kernel
  have c2 : ∀ qq ∈ ["sb", "db"], ∀ x ∈ namesLep qq, ∀ e ∈ bmarks (okOr (fierzBernLep x)), ∀ m ∈ e.2,
      subInputs flavioBernInputs e.1 (fierzLepI qq x) m.2 = true := by decide +kernel
  have c3 : ∀ qq ∈ ["sb", "db"], ∀ e ∈ mFierzBernChrom qq, ∀ m ∈ e.2,
      subInputs flavioBernInputs e.1 (fierzChromI (.GF :: xiInputs qq) [.alpha_e, .m_b] [.alpha_s, .m_b] qq) m.2 = true := by
    decide +kernel
  have c4 : ∀ qq ∈ ["sb", "db"], (∀ n ∈ ["7gamma" ++ qq, "7pgamma" ++ qq], hasInputs flavioBernInputs n [.alpha_e, .alpha_s, .m_b] = true) ∧
      (∀ n ∈ ["8g" ++ qq, "8pg" ++ qq], hasInputs flavioBernInputs n [.alpha_s, .m_b] = true) := by decide +kernel
  unfold blkFlavioBern
  refine (((Agr.refl _ _).flatten_append (Agr.flatten_map _ fun x hx => ?_)).flatten_append (Agr.flatten_flatMap _ fun l hl => ?_)).flatten_append ?_
  · exact agr_flavioBernII hP hP' hx (c1 x hx)
  · have t : ∀ qq ∈ ["sb", "db"], Agr (SameInputs flavioBernInputs P P')
        (comp (okOr (flavioFierzLep P (nameLep qq l))) (okOr (fierzBernLep (nameLep qq l))))
        (comp (okOr (flavioFierzLep P' (nameLep qq l))) (okOr (fierzBernLep (nameLep qq l)))) := by
      intro qq hq
      have hq3 : qq ∈ ["sb", "db", "ds"] := two_of_three hq
      exact Agr.comp_right _ (agr_flavioFierzLep hP hP' hq3 (mem_namesLep qq hl))
        fun e he hs m hm => hs.sub (c2 qq hq _ (mem_namesLep qq hl) e he m hm)
    exact cons_flatten (t "sb" (by simp)) <| cons_flatten (t "db" (by simp)) (Agr.refl _ _)
  · have t : ∀ qq ∈ ["sb", "db"], Agr (SameInputs flavioBernInputs P P') (comp (okOr (flavioFierzChrom P qq)) (okOr (fierzBernChrom P qq)))
        (comp (okOr (flavioFierzChrom P' qq)) (okOr (fierzBernChrom P' qq))) := by
      intro qq hq
      have hq3 : qq ∈ ["sb", "db", "ds"] := two_of_three hq
      refine Agr.comp (agr_flavioFierzChrom hP hP' hq3) (agr_fierzBernChrom hP hP' qq (c4 qq hq).1 (c4 qq hq).2) ?_
      rw [bmarks_fierzBernChrom hP]
      exact fun e he hs m hm => hs.sub (c3 qq hq e he m hm)
    exact cons_flatten (t "sb" (by simp)) <| cons_flatten (t "db" (by simp)) (Agr.refl _ _)

/-! ### EOS and FormFlavor -/

theorem agr_blkEosV (c : ∀ n ∈ bkeys fierzEosVTable, hasInputs I n [.GF, .V 2 2, .V 2 1] = true) :
    Agr (SameInputs I P P') (blkEosV P) (blkEosV P') := by
  unfold blkEosV
  rw [fierzEosV_eq hP, fierzEosV_eq hP', okOr_ok, okOr_ok]
  have h : Agr (SameInputs I P P') (scaleBy (prefEosv P) fierzEosVTable) (scaleBy (prefEosv P') fierzEosVTable) :=
    (Agr.refl _ _).scaleBy fun n hn hs => prefEosv_same (hs.all (c n hn))
  refine h.map (f := fun e => e.bind fun s => Dict.getD (ν := Ex JSrc) (Dict.getD (ν := Block JSrc) eosDicts s.1 []) s.2 Ex.zero)
    (f' := fun e => e.bind fun s => Dict.getD (ν := Ex JSrc) (Dict.getD (ν := Block JSrc) eosDicts s.1 []) s.2 Ex.zero)
    fun e he e' hk hv v => ?_
  rw [Ex.val_bind, Ex.val_bind, hv]

theorem agr_fierzEosLep (x : String)
    (c : ∀ n ∈ bkeys (fierzEosLepTable (indLep x) (String.ofList ((indLep x).toList.drop 2)) 0),
      hasInputs I n [.alpha_e, .GF, .V 2 2, .V 2 1] = true) :
    Agr (SameInputs I P P') (okOr (fierzEosLep P x)) (okOr (fierzEosLep P' x)) := by
  rw [fierzEosLep_eq hP, fierzEosLep_eq hP', okOr_ok, okOr_ok]
  exact (agr_eosLepTable _ _ fun n hn hs => k16v_same fun q hq => hs.all (c n hn) q (by simp_all)).scaleBy
    fun n hn hs => prefEosv_same fun q hq => hs.all (c n hn) q (List.mem_cons_of_mem _ hq)

theorem agr_fierzEosChrom (hm : P.p.m_b ^ 2 ≠ P.p.m_s ^ 2) (hm' : P'.p.m_b ^ 2 ≠ P'.p.m_s ^ 2)
    (c7 : ∀ n ∈ ["b->s::c7", "b->s::c7'"], hasInputs I n [.alpha_e, .m_b, .m_s, .GF, .V 2 2, .V 2 1] = true)
    (c8 : ∀ n ∈ ["b->s::c8", "b->s::c8'"], hasInputs I n [.alpha_s, .m_b, .m_s, .GF, .V 2 2, .V 2 1] = true) :
    Agr (SameInputs I P P') (okOr (fierzEosChrom P "sb")) (okOr (fierzEosChrom P' "sb")) := by
  have eq : ∀ {P : PEnv}, Spec.Admissible P → P.p.m_b ^ 2 ≠ P.p.m_s ^ 2 → fierzEosChrom P "sb" = .ok (scaleBy (prefEosv P)
      (fierzEosChromTable "sb" (16 * Real.pi ^ 2 * P.p.m_b / ev P) (16 * Real.pi ^ 2 * P.p.m_s / ev P) (16 * Real.pi ^ 2 * P.p.m_b / gv P)
        (16 * Real.pi ^ 2 * P.p.m_s / gv P) (P.p.m_b ^ 2 - P.p.m_s ^ 2))) := by
    intro P hP hm
    have : ((P.p.m_b ^ 2 - P.p.m_s ^ 2 : ℝ) : ℂ) ≠ 0 := by exact_mod_cast sub_ne_zero.2 hm
    unfold fierzEosChrom
    rw [e_ok hP, except_ok_bind, gs_ok hP, except_ok_bind, divE_ok (ev_ne hP), except_ok_bind, divE_ok (ev_ne hP),
      except_ok_bind, divE_ok (gv_ne hP), except_ok_bind, divE_ok (gv_ne hP), except_ok_bind]
    dsimp only
    rw [divC_ok this, except_ok_bind, prefEos_ok hP, except_ok_bind]; rfl
  rw [eq hP hm, eq hP' hm', okOr_ok, okOr_ok]
  have h7 : ∀ n ∈ ["b->s::c7", "b->s::c7'"], SameInputs I P P' n →
      ev P = ev P' ∧ P.p.m_b = P'.p.m_b ∧ P.p.m_s = P'.p.m_s ∧ prefEosv P = prefEosv P' := fun n hn hs =>
    have a := hs.all (c7 n hn)
    ⟨ev_same fun q hq => a q (by simp_all), a .m_b (by simp), a .m_s (by simp), prefEosv_same fun q hq => a q (by simp_all)⟩
  have h8 : ∀ n ∈ ["b->s::c8", "b->s::c8'"], SameInputs I P P' n →
      gv P = gv P' ∧ P.p.m_b = P'.p.m_b ∧ P.p.m_s = P'.p.m_s ∧ prefEosv P = prefEosv P' := fun n hn hs =>
    have a := hs.all (c8 n hn)
    ⟨gv_same fun q hq => a q (by simp_all), a .m_b (by simp), a .m_s (by simp), prefEosv_same fun q hq => a q (by simp_all)⟩
  simp only [List.forall_mem_cons, List.not_mem_nil, IsEmpty.forall_iff, forall_const, and_true] at h7 h8
  unfold fierzEosChromTable scaleBy Agr
  simp only [List.map_cons, List.map_nil]
  agr_entries
  · obtain ⟨a, b, c, d⟩ := h7.1 (by assumption); rw [a, b, c, d]
  · obtain ⟨a, b, c, d⟩ := h7.2 (by assumption); rw [a, b, c, d]
  · obtain ⟨a, b, c, d⟩ := h8.1 (by assumption); rw [a, b, c, d]
  · obtain ⟨a, b, c, d⟩ := h8.2 (by assumption); rw [a, b, c, d]

theorem agr_eos (hm : P.p.m_b ^ 2 ≠ P.p.m_s ^ 2) (hm' : P'.p.m_b ^ 2 ≠ P'.p.m_s ^ 2) :
    Agr (SameInputs eosInputs P P') (blkEos P).flatten (blkEos P').flatten := by
  have hII : ∀ l ∈ ["e", "mu"], nameLep "ub" (l, l) ∈ namesII := by decide +kernel
  have c1 : ∀ l ∈ ["e", "mu"], ∀ n ∈ bkeys (bernEosIITable (indII (nameLep "ub" (l, l))) (indIIeos (nameLep "ub" (l, l)))),
      ckII eosInputs (nameLep "ub" (l, l)) n = true := by decide +kernel
  have c2 : ∀ n ∈ bkeys fierzEosVTable, hasInputs eosInputs n [.GF, .V 2 2, .V 2 1] = true := by decide +kernel
  have c3 : ∀ x ∈ ["sbl_enu_e", "sbl_munu_mu"], ∀ n ∈ bkeys (fierzEosLepTable (indLep x) (String.ofList ((indLep x).toList.drop 2)) 0),
      hasInputs eosInputs n [.alpha_e, .GF, .V 2 2, .V 2 1] = true := by decide +kernel
  have c4 : ∀ n ∈ ["b->s::c7", "b->s::c7'"], hasInputs eosInputs n [.alpha_e, .m_b, .m_s, .GF, .V 2 2, .V 2 1] = true := by
    decide +kernel
  have c5 : ∀ n ∈ ["b->s::c8", "b->s::c8'"], hasInputs eosInputs n [.alpha_s, .m_b, .m_s, .GF, .V 2 2, .V 2 1] = true := by
    decide +kernel
  unfold blkEos
  refine (Agr.flatten_map _ fun l hl => Agr.comp_left _ (agr_bernEosII hP hP' (hII l hl) (c1 l hl))).flatten_append ?_
  exact cons_flatten (agr_blkEosV hP hP' c2) <|
    cons_flatten (Agr.comp_left _ (agr_fierzEosLep hP hP' _ (c3 "sbl_enu_e" (by simp)))) <|
    cons_flatten (Agr.comp_left _ (agr_fierzEosLep hP hP' _ (c3 "sbl_munu_mu" (by simp)))) <|
    cons_flatten (Agr.comp_left _ (agr_fierzEosChrom hP hP' hm hm' c4 c5)) (Agr.refl _ _)

/-- The left-handed lepton dipoles (see C47). -/
def ffLeptonLeft : List String := ["CAL_mt", "CAL_em", "CAL_et"]

theorem agr_formFlavor : Agr (fun n => SameInputs formFlavorInputs P P' n ∧ n ∉ ffLeptonLeft) (blkFormFlavor P).flatten (blkFormFlavor P').flatten := by
  obtain ⟨h1, h2, h3, h4, h5, h6, h7⟩ := formFlavorChrom_eq hP
  obtain ⟨h1', h2', h3', h4', h5', h6', h7'⟩ := formFlavorChrom_eq hP'
  have cA : ∀ qq ∈ ["sb", "db", "uu", "dd", "mt", "em", "et"], ∀ n ∈ ["CAR_" ++ qq, "CAL_" ++ qq], hasInputs formFlavorInputs n [.alpha_e] = true := by
    decide +kernel
  have cG : ∀ qq ∈ ["sb", "db", "uu", "dd"], ∀ n ∈ ["CGR_" ++ qq, "CGL_" ++ qq], hasInputs formFlavorInputs n [.alpha_s] = true := by
    decide +kernel
  have cL : ∀ qq ∈ ["mt", "em", "et"], "CAL_" ++ qq ∈ ffLeptonLeft := by decide +kernel
  unfold blkFormFlavor
  refine (Agr.refl _ _).flatten_append ?_
  simp only [List.map_cons, List.map_nil]
  rw [h1, h2, h3, h4, h5, h6, h7, h1', h2', h3', h4', h5', h6', h7']
  simp only [okOr_ok]
  have down : ∀ qq ∈ ["sb", "db", "uu", "dd"], ∀ s t, Agr (fun n => SameInputs formFlavorInputs P P' n ∧ n ∉ ffLeptonLeft)
      (formFlavorDownTable qq s t (ev P) (gv P)) (formFlavorDownTable qq s t (ev P') (gv P')) := fun qq hq s t =>
    agr_ffDown qq s t (fun n hn hs => ev_same (hs.1.all (cA qq (by simp at hq ⊢; tauto) n hn))) fun n hn hs => gv_same (hs.1.all (cG qq hq n hn))
  have lep : ∀ qq ∈ ["mt", "em", "et"], ∀ s t, Agr (fun n => SameInputs formFlavorInputs P P' n ∧ n ∉ ffLeptonLeft)
      (formFlavorLepTable qq s t (ev P) (gv P)) (formFlavorLepTable qq s t (ev P') (gv P')) := fun qq hq s t =>
    agr_ffLep qq s t (fun hs => ev_same (hs.1.all (cA qq (by simp at hq ⊢; tauto) _ (by simp)))) fun hs => absurd (cL qq hq) hs.2
  exact cons_flatten (down "sb" (by simp) _ _) <| cons_flatten (down "db" (by simp) _ _) <|
    cons_flatten (agr_ffUp "uu" 0 0 (fun n hn hs => ev_same (hs.1.all (cA "uu" (by simp) n hn)))
      fun n hn hs => gv_same (hs.1.all (cG "uu" (by simp) n hn))) <|
    cons_flatten (down "dd" (by simp) _ _) <| cons_flatten (lep "mt" (by simp) _ _) <| cons_flatten (lep "em" (by simp) _ _) <|
    cons_flatten (lep "et" (by simp) _ _) (Agr.refl _ _)

end

end Verif
