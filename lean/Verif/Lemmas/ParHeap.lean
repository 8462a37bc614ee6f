import Verif.Model.ParHeap

/-! Effects of the registered functions on parameter dictionaries. -/

set_option autoImplicit false

namespace Verif

section Basic

variable {α β : Type}

theorem run_bind (m : HM α) (f : α → HM β) (h : Heap) : (m >>= f).run h =
    match m.run h with
    | (.ok a, h') => (f a).run h'
    | (.error e, h') => (.error e, h') := by
  change (ExceptT.bind m f).run h = _
  unfold ExceptT.bind ExceptT.mk ExceptT.run
  change (StateT.bind m (ExceptT.bindCont f)) h = _
  unfold StateT.bind
  change (match m h with | (a, s) => ExceptT.bindCont f a s) = _
  rcases m h with ⟨r | r, s⟩ <;> rfl

theorem run_pure (a : α) (h : Heap) : (pure a : HM α).run h = (.ok a, h) := rfl

theorem run_liftE (x : Except PyErr α) (h : Heap) : (liftE x).run h = (x, h) := by cases x <;> rfl

theorem run_read {h : Heap} {a : ℕ} {d : Par} (hd : h[a]? = some d) : (hRead a).run h = (.ok d, h) := by
  unfold hRead
  rw [run_bind]
  change (match h[a]? with | some d => (pure d : HM Par) | none => throw PyErr.unmodelled).run h = _
  rw [hd]; rfl

theorem run_new (d : Par) (h : Heap) : (hNew d).run h = (.ok h.length, h ++ [d]) := rfl

theorem run_write (a : ℕ) (d : Par) (h : Heap) : (hWrite a d).run h = (.ok (), h.set a d) := rfl

theorem run_get {h : Heap} {a : ℕ} {d : Par} (hd : h[a]? = some d) (k : String) : (hGet a k).run h = (Dict.get d k, h) := by
  unfold hGet
  rw [run_bind, run_read hd]
  exact run_liftE _ _

theorem run_set {h : Heap} {a : ℕ} {d : Par} (hd : h[a]? = some d) (k : String) (v : ℝ) :
    (hSet a k v).run h = (.ok (), h.set a (Dict.put d k v)) := by
  unfold hSet
  rw [run_bind, run_read hd]
  rfl

/-- The code gives the result `x` and leaves the heap as it is. -/
def NoEff (m : HM α) (h : Heap) (x : Except PyErr α) : Prop := m.run h = (x, h)

theorem NoEff.pure (a : α) (h : Heap) : NoEff (Pure.pure a) h (.ok a) := rfl

theorem NoEff.lift (x : Except PyErr α) (h : Heap) : NoEff (liftE x) h x := run_liftE x h

theorem NoEff.get {h : Heap} {a : ℕ} {d : Par} (hd : h[a]? = some d) (k : String) : NoEff (hGet a k) h (Dict.get d k) :=
  run_get hd k

theorem NoEff.bind {m : HM α} {f : α → HM β} {h : Heap} {x : Except PyErr α} {g : α → Except PyErr β}
    (hm : NoEff m h x) (hf : ∀ a, NoEff (f a) h (g a)) : NoEff (m >>= f) h (x >>= g) := by
  unfold NoEff at *
  rw [run_bind, hm]
  cases x with
  | error e => rfl
  | ok a => exact hf a

theorem NoEff.foldlM {f : β → α → HM β} {g : β → α → Except PyErr β} {h : Heap} (hf : ∀ b a, NoEff (f b a) h (g b a))
    (l : List α) (b : β) : NoEff (l.foldlM f b) h (l.foldlM g b) := by
  induction l generalizing b with
  | nil => exact NoEff.pure b h
  | cons a l ih =>
    rw [List.foldlM_cons, List.foldlM_cons]
    exact NoEff.bind (hf b a) ih

/-- The code gives the result `x` and only adds objects to the heap. -/
def Ext (m : HM α) (h : Heap) (x : Except PyErr α) : Prop := ∃ t, m.run h = (x, h ++ t)

theorem NoEff.ext {m : HM α} {h : Heap} {x : Except PyErr α} (hm : NoEff m h x) : Ext m h x :=
  ⟨[], hm.trans (by rw [List.append_nil])⟩

theorem Ext.bind {m : HM α} {f : α → HM β} {h : Heap} {x : Except PyErr α} {g : α → Except PyErr β}
    (hm : Ext m h x) (hf : ∀ a t, Ext (f a) (h ++ t) (g a)) : Ext (m >>= f) h (x >>= g) := by
  obtain ⟨t, ht⟩ := hm
  unfold Ext
  rw [run_bind, ht]
  cases x with
  | error e => exact ⟨t, rfl⟩
  | ok a =>
    obtain ⟨t', ht'⟩ := hf a t
    exact ⟨t ++ t', by rw [← List.append_assoc]; exact ht'⟩

end Basic

/-! ### Preparation -/

/-- The default parameters, and the contents of the argument. -/
structure GoodPar (default : Par) (par : Option ℕ) (pc : Option Par) (h : Heap) : Prop where
  dflt : h[0]? = some default
  arg : par.bind (fun a => h[a]?) = pc
  isSome : par.isSome = pc.isSome

theorem getElem?_append_of_some {h t : Heap} {a : ℕ} {d : Par} (hd : h[a]? = some d) : (h ++ t)[a]? = some d := by
  obtain ⟨hlt, -⟩ := List.getElem?_eq_some_iff.1 hd
  rw [List.getElem?_append_left hlt, hd]

theorem GoodPar.append {default : Par} {par : Option ℕ} {pc : Option Par} {h : Heap} (hg : GoodPar default par pc h) (t : Heap) :
    GoodPar default par pc (h ++ t) := by
  obtain ⟨h1, h2, h3⟩ := hg
  refine ⟨getElem?_append_of_some h1, ?_, h3⟩
  cases par with
  | none => exact h2
  | some a =>
    cases pc with
    | none => simp at h3
    | some e => exact getElem?_append_of_some h2

theorem GoodPar.none {default : Par} {par : Option ℕ} {pc : Option Par} {h : Heap} (hg : GoodPar default par pc h) :
    GoodPar default none none h := ⟨hg.dflt, rfl, rfl⟩

theorem getElem?_last (h : Heap) (d : Par) : (h ++ [d])[h.length]? = some d := by simp

theorem set_last (h : Heap) (d e : Par) : (h ++ [d]).set h.length e = h ++ [e] := by simp

theorem run_prep {default : Par} {par : Option ℕ} {pc : Option Par} {h : Heap} (hg : GoodPar default par pc h) :
    (prepH par).run h = (.ok h.length, h ++ [withPar default pc]) := by
  obtain ⟨h1, h2, h3⟩ := hg
  unfold prepH
  rw [run_bind]
  have : (hCopy defaultAddr).run h = (.ok h.length, h ++ [default]) := by
    unfold hCopy
    rw [run_bind, run_read (show h[defaultAddr]? = some default from h1)]
    rfl
  rw [this]
  cases par with
  | none =>
    obtain rfl : none = pc := h2
    rfl
  | some a =>
    cases pc with
    | none => simp at h3
    | some e =>
      have h2 : h[a]? = some e := h2
      change (hUpdate h.length a >>= fun _ => pure h.length).run (h ++ [default]) = _
      rw [run_bind]
      unfold hUpdate
      rw [run_bind, run_read (getElem?_last h default)]
      dsimp only
      rw [run_bind, run_read (getElem?_append_of_some h2)]
      dsimp only
      rw [run_write, set_last]
      rfl

theorem Ext.prep {α : Type} {default : Par} {par : Option ℕ} {pc : Option Par} {h : Heap} (hg : GoodPar default par pc h)
    {f : ℕ → HM α} {x : Except PyErr α} (hf : ∀ a h', h'[a]? = some (withPar default pc) → NoEff (f a) h' x) :
    Ext (prepH par >>= f) h x := by
  refine ⟨[withPar default pc], ?_⟩
  rw [run_bind, run_prep hg]
  exact hf _ _ (getElem?_last _ _)

/-! ### Code that reads a prepared dictionary -/

section Reads

variable {h : Heap} {p : ℕ} {d : Par} (hd : h[p]? = some d)
include hd

theorem NoEff.ckm (ckm : ℝ → ℝ → ℝ → ℝ → M3) : NoEff (ckmH ckm p) h (ckmOf ckm d) := by
  unfold ckmH ckmOf
  refine NoEff.bind (NoEff.get hd _) fun _ => NoEff.bind (NoEff.get hd _) fun _ => NoEff.bind (NoEff.get hd _) fun _ =>
    NoEff.bind (NoEff.get hd _) fun _ => NoEff.pure _ _

theorem NoEff.rotateU (ckm : ℝ → ℝ → ℝ → ℝ → M3) (C out : Dict String ℂ) (name : String) :
    NoEff (rotateUH ckm p C out name) h (rotateU ckm d C out name) := by
  unfold rotateUH Verif.rotateU
  exact NoEff.bind (NoEff.lift _ _) fun _ => NoEff.bind (NoEff.ckm hd _) fun _ => NoEff.bind (NoEff.lift _ _) fun _ =>
    NoEff.pure _ _

theorem NoEff.vT (C : Src) : NoEff (vTH C p) h (vT C d) := by
  unfold vTH Verif.vT
  exact NoEff.bind (NoEff.get hd _) fun _ => NoEff.bind (NoEff.lift _ _) fun _ => NoEff.lift _ _

theorem NoEff.eps (C : Src) : NoEff (epsH C p) h (eps C d) := by
  unfold epsH Verif.eps
  exact NoEff.bind (NoEff.vT hd C) fun _ => NoEff.pure _ _

omit hd in
theorem put_same {d : Par} {k : String} {v : ℝ} (hk : Dict.find d k = some v) : Dict.put d k v = d := by
  induction d with
  | nil => simp [Dict.find] at hk
  | cons q d ih =>
    rw [Dict.find_cons] at hk
    unfold Dict.put
    split_ifs at hk ⊢ with e
    · obtain ⟨a, b⟩ := q
      have e : a = k := e
      cases hk
      rw [e]
    · rw [ih hk]

theorem NoEff.g2b (C : Src) : NoEff (g2bH C p) h (g2b C d) := by
  unfold g2bH Verif.g2b
  cases hm : Dict.get d "m_W" with
  | error e =>
    unfold NoEff
    rw [run_bind, run_get hd, hm]
    rfl
  | ok v =>
    have hset : NoEff (hSet p "m_W" v) h (.ok ()) := by
      unfold NoEff
      rw [run_set hd, put_same (Dict.get_ok_iff.1 hm)]
      congr 1
      obtain ⟨hlt, he⟩ := List.getElem?_eq_some_iff.1 hd
      rw [← he]
      exact List.set_getElem_self hlt
    unfold NoEff at hset ⊢
    rw [run_bind, run_get hd, hm]
    dsimp only
    rw [run_bind, hset]
    dsimp only
    rw [run_bind, run_get hd, hm]
    exact NoEff.bind (g := fun x => divE (2 * v) x) (NoEff.vT hd C) fun _ => NoEff.lift _ _

theorem NoEff.g1b (C : Src) : NoEff (g1bH C p) h (g1b C d) := by
  unfold g1bH Verif.g1b
  exact NoEff.bind (NoEff.get hd _) fun _ => NoEff.bind (NoEff.lift _ _) fun _ => NoEff.bind (NoEff.g2b hd C) fun _ =>
    NoEff.bind (NoEff.lift _ _) fun _ => NoEff.bind (NoEff.lift _ _) fun _ => NoEff.bind (NoEff.lift _ _) fun _ =>
    NoEff.bind (NoEff.eps hd C) fun _ => NoEff.pure _ _

theorem NoEff.sb (C : Src) : NoEff (sbH C p) h (sb C d) := by
  unfold sbH Verif.sb
  exact NoEff.bind (NoEff.g1b hd C) fun _ => NoEff.bind (NoEff.g2b hd C) fun _ => NoEff.bind (NoEff.lift _ _) fun _ =>
    NoEff.bind (NoEff.eps hd C) fun _ => NoEff.bind (NoEff.lift _ _) fun _ => NoEff.bind (NoEff.lift _ _) fun _ =>
    NoEff.bind (NoEff.lift _ _) fun _ => NoEff.pure _ _

theorem NoEff.cb (C : Src) : NoEff (cbH C p) h (cb C d) := by
  unfold cbH Verif.cb
  exact NoEff.bind (NoEff.g1b hd C) fun _ => NoEff.bind (NoEff.g2b hd C) fun _ => NoEff.bind (NoEff.lift _ _) fun _ =>
    NoEff.bind (NoEff.eps hd C) fun _ => NoEff.bind (NoEff.lift _ _) fun _ => NoEff.bind (NoEff.lift _ _) fun _ =>
    NoEff.bind (NoEff.lift _ _) fun _ => NoEff.pure _ _

theorem NoEff.eb (C : Src) : NoEff (ebH C p) h (eb C d) := by
  unfold ebH Verif.eb
  exact NoEff.bind (NoEff.g2b hd C) fun _ => NoEff.bind (NoEff.sb hd C) fun _ => NoEff.bind (NoEff.cb hd C) fun _ =>
    NoEff.bind (NoEff.vT hd C) fun _ => NoEff.pure _ _

theorem NoEff.gzb (C : Src) : NoEff (gzbH C p) h (gzb C d) := by
  unfold gzbH Verif.gzb
  exact NoEff.bind (NoEff.eb hd C) fun _ => NoEff.bind (NoEff.sb hd C) fun _ => NoEff.bind (NoEff.cb hd C) fun _ =>
    NoEff.bind (NoEff.g1b hd C) fun _ => NoEff.bind (NoEff.g2b hd C) fun _ => NoEff.bind (NoEff.vT hd C) fun _ =>
    NoEff.bind (NoEff.lift _ _) fun _ => NoEff.bind (NoEff.lift _ _) fun _ => NoEff.pure _ _

theorem NoEff.ewOf (C : Src) : NoEff (ewOfH C p) h (ewOf C d) := by
  unfold ewOfH Verif.ewOf
  exact NoEff.bind (NoEff.vT hd C) fun _ => NoEff.bind (NoEff.g2b hd C) fun _ => NoEff.bind (NoEff.sb hd C) fun _ =>
    NoEff.bind (NoEff.cb hd C) fun _ => NoEff.bind (NoEff.gzb hd C) fun _ => NoEff.bind (NoEff.get hd _) fun _ =>
    NoEff.bind (NoEff.get hd _) fun _ => NoEff.bind (NoEff.lift _ _) fun _ => NoEff.bind (NoEff.lift _ _) fun _ =>
    NoEff.pure _ _

theorem NoEff.matchAllArray (C : Dict String Arr) : NoEff (matchAllArrayH C p) h (matchAllArray C d) := by
  unfold matchAllArrayH Verif.matchAllArray
  exact NoEff.bind (NoEff.lift _ _) fun _ => NoEff.bind (NoEff.ewOf hd _) fun _ => NoEff.bind (NoEff.ewOf hd _) fun _ =>
    NoEff.pure _ _

theorem NoEff.rotateDown (ckm : ℝ → ℝ → ℝ → ℝ → M3) (C : Dict String Arr) :
    NoEff (rotateDownH ckm C p) h (rotateDown ckm C d) := by
  unfold rotateDownH Verif.rotateDown
  exact NoEff.bind (NoEff.ckm hd _) fun _ => NoEff.pure _ _

end Reads

/-! ### Functions -/

section Functions

variable {default : Par} {par : Option ℕ} {pc : Option Par} {h : Heap} (hg : GoodPar default par pc h)
include hg

theorem Ext.matchAll (ckm : ℝ → ℝ → ℝ → ℝ → M3) (L : List String) (d : Dict String ℂ) :
    Ext (matchAllH ckm L d par) h (matchAll ckm L default d pc) := by
  unfold matchAllH Verif.matchAll
  refine Ext.prep hg fun a h' ha => ?_
  exact NoEff.bind (NoEff.lift _ _) fun _ => NoEff.bind (NoEff.lift _ _) fun _ => NoEff.bind (NoEff.matchAllArray ha _) fun _ =>
    NoEff.bind (NoEff.rotateDown ha _ _) fun _ => NoEff.pure _ _

theorem Ext.rotateWarsaw (Uq : M3 → M3) (ckm : ℝ → ℝ → ℝ → ℝ → M3) (L : List String) (d : Dict String ℂ) :
    Ext (rotateWarsawH Uq ckm L d par) h (rotateWarsaw Uq ckm L default d pc) := by
  unfold rotateWarsawH Verif.rotateWarsaw
  refine Ext.bind (NoEff.lift _ _).ext fun _ t => Ext.bind (NoEff.lift _ _).ext fun _ t' =>
    Ext.prep ((hg.append t).append t') fun a h' ha => ?_
  exact NoEff.bind (NoEff.ckm ha _) fun _ => NoEff.bind (NoEff.lift _ _) fun _ => NoEff.pure _ _

theorem Ext.warsawToWarsawmass (ckm : ℝ → ℝ → ℝ → ℝ → M3) (msvd : M3 → Fin 3 → ℝ) (d : Dict String ℂ) :
    Ext (warsawToWarsawmassH ckm msvd d par) h (warsawToWarsawmass ckm msvd default d pc) := by
  unfold warsawToWarsawmassH Verif.warsawToWarsawmass
  refine Ext.prep hg fun a h' ha => ?_
  exact NoEff.bind (NoEff.foldlM (fun out n => NoEff.rotateU ha ckm d out n) _ _) fun _ => NoEff.bind (NoEff.lift _ _) fun _ =>
    NoEff.bind (NoEff.lift _ _) fun _ => NoEff.pure _ _

end Functions

/-! ### get_parameters -/

/-- The code gives the result `x`; of two dictionaries at the end of the heap only the second may change. -/
def Own {α : Type} (h : Heap) (m : HM α) (q : Par) (x : Except PyErr α) : Prop := ∃ q', m.run (h ++ [q]) = (x, h ++ [q'])

section Own

variable {α β : Type} {h : Heap} {p : ℕ} {d q : Par} {x : Except PyErr α}

theorem Own.get (hd : h[p]? = some d) {k : String} {f : ℝ → HM α} {g : ℝ → Except PyErr α}
    (hf : ∀ v, Dict.get d k = .ok v → Own h (f v) q (g v)) : Own h (hGet p k >>= f) q (Dict.get d k >>= g) := by
  unfold Own
  rw [run_bind, run_get (getElem?_append_of_some hd)]
  cases hv : Dict.get d k with
  | error e => exact ⟨q, rfl⟩
  | ok v => exact hf v hv

theorem Own.known (hd : h[p]? = some d) {k : String} {v : ℝ} (hv : Dict.get d k = .ok v) {f : ℝ → HM α}
    (hf : Own h (f v) q x) : Own h (hGet p k >>= f) q x := by
  unfold Own
  rw [run_bind, run_get (getElem?_append_of_some hd), hv]
  exact hf

theorem Own.lift {y : Except PyErr β} {f : β → HM α} {g : β → Except PyErr α}
    (hf : ∀ v, Own h (f v) q (g v)) : Own h (liftE y >>= f) q (y >>= g) := by
  unfold Own
  rw [run_bind, run_liftE]
  cases y with
  | error e => exact ⟨q, rfl⟩
  | ok v => exact hf v

theorem Own.set {k : String} {v : ℝ} {f : Unit → HM α} (hf : Own h (f ()) (Dict.put q k v) x) :
    Own h (hSet h.length k v >>= f) q x := by
  unfold Own
  rw [run_bind, run_set (getElem?_last h q), set_last]
  exact hf

theorem Own.own {k : String} {v : ℝ} (hv : Dict.find q k = some v) {f : ℝ → HM α} (hf : Own h (f v) q x) :
    Own h (hGet h.length k >>= f) q x := by
  unfold Own
  rw [run_bind, run_get (getElem?_last h q), Dict.get_of_find hv]
  exact hf

theorem Own.pure (a : α) : Own h (Pure.pure a) q (.ok a) := ⟨q, rfl⟩

end Own

theorem Own.ext {α : Type} {default : Par} {par : Option ℕ} {pc : Option Par} {h : Heap} (hg : GoodPar default par pc h)
    {f : ℕ → ℕ → HM α} {x : Except PyErr α}
    (hf : ∀ (h1 : Heap) p, h1[p]? = some (withPar default pc) → Own h1 (f p h1.length) [] x) :
    Ext (prepH par >>= fun p => hNew [] >>= fun a => f p a) h x := by
  obtain ⟨q, hq⟩ := hf (h ++ [withPar default pc]) h.length (getElem?_last _ _)
  refine ⟨[withPar default pc, q], ?_⟩
  rw [run_bind, run_prep hg]
  dsimp only
  rw [run_bind, run_new]
  dsimp only
  rw [hq, List.append_assoc]
  rfl

theorem Ext.getParameters {default : Par} {par : Option ℕ} {pc : Option Par} {h : Heap} (hg : GoodPar default par pc h)
    (E : REnv) (scale : ℝ) :
    Ext (getParametersH E.rd scale par >>= readWPar) h (getParameters (E.wet default) scale pc) := by
  unfold getParametersH
  simp only [bind_assoc, pure_bind, keptKeys, List.forM_eq_forM, List.forM_cons, List.forM_nil]
  refine Own.ext hg fun h1 p hd => ?_
  unfold Verif.getParameters readWPar
  refine Own.get hd fun mb0 _ => Own.get hd fun as0 has => Own.lift fun mb => Own.set ?_
  refine Own.get hd fun ms0 _ => Own.known hd has (Own.lift fun ms => Own.set ?_)
  refine Own.known hd has (Own.lift fun as => Own.set ?_)
  refine Own.get hd fun v1 _ => Own.set (Own.get hd fun v2 _ => Own.set (Own.get hd fun v3 _ => Own.set ?_))
  refine Own.get hd fun v4 _ => Own.set (Own.get hd fun v5 _ => Own.set (Own.get hd fun v6 _ => Own.set ?_))
  refine Own.get hd fun v7 _ => Own.set (Own.get hd fun v8 _ => Own.set (Own.get hd fun v9 _ => Own.set ?_))
  refine Own.get hd fun v10 _ => Own.set (Own.get hd fun v11 _ => Own.set ?_)
  refine Own.own (v := mb) (by simp [Dict.find_put]) ?_
  refine Own.own (v := ms) (by simp [Dict.find_put]) ?_
  refine Own.own (v := as) (by simp [Dict.find_put]) ?_
  refine Own.own (v := v1) (by simp [Dict.find_put]) ?_
  refine Own.own (v := v2) (by simp [Dict.find_put]) ?_
  refine Own.own (v := v3) (by simp [Dict.find_put]) ?_
  refine Own.own (v := v4) (by simp [Dict.find_put]) ?_
  refine Own.own (v := v5) (by simp [Dict.find_put]) ?_
  refine Own.own (v := v6) (by simp [Dict.find_put]) ?_
  refine Own.own (v := v7) (by simp [Dict.find_put]) ?_
  refine Own.own (v := v8) (by simp [Dict.find_put]) ?_
  refine Own.own (v := v9) (by simp [Dict.find_put]) ?_
  refine Own.own (v := v10) (by simp [Dict.find_put]) ?_
  refine Own.own (v := v11) (by simp [Dict.find_put]) ?_
  exact Own.pure _

theorem Ext.wet {default : Par} {par : Option ℕ} {pc : Option Par} {h : Heap} (hg : GoodPar default par pc h)
    (E : REnv) (scale : ℝ) (body : WPar → Dict String ℂ → Except PyErr (Dict String ℂ)) (C : Dict String ℂ) :
    Ext (wetH E.rd body C scale par) h (Verif.getParameters (E.wet default) scale pc >>= fun P => body P C) := by
  unfold wetH
  rw [← bind_assoc]
  exact Ext.bind (Ext.getParameters hg E scale) fun P t => (NoEff.lift _ _).ext

end Verif
