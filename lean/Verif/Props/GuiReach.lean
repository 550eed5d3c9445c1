/-
C107: everything in an open vault can be brought on the screen with keys.
-/
import Verif.Props.GuiCrash
import Verif.Props.Password
import Verif.Props.Vault

set_option linter.unusedSimpArgs false

namespace OnePass
namespace Gui
open Act Spec

variable (C : Ctx) (K : Kit)

/-- Some keys lead from one state to another; the world stays as it is. -/
def Keys (s t : St) : Prop :=
  (∃ ks : List Key, run C K (ks.map .key) s = (.ok (), t)) ∧ t.world = s.world ∧ t.maxX = s.maxX ∧ t.maxY = s.maxY

variable {C K}

theorem Keys.refl (s : St) : Keys C K s s := ⟨⟨[], rfl⟩, rfl, rfl, rfl⟩

theorem Keys.trans {s t u : St} (h1 : Keys C K s t) (h2 : Keys C K t u) : Keys C K s u := by
  obtain ⟨⟨k1, e1⟩, w1, x1, y1⟩ := h1
  obtain ⟨⟨k2, e2⟩, w2, x2, y2⟩ := h2
  exact ⟨⟨k1 ++ k2, by rw [List.map_append, run_append C K _ _ _ e1, e2]⟩, w2.trans w1, x2.trans x1, y2.trans y1⟩

theorem Keys.one {s t : St} (k : Key) (h : press C K k s = (.ok (), t)) (hw : t.world = s.world) (hx : t.maxX = s.maxX)
    (hy : t.maxY = s.maxY) : Keys C K s t :=
  ⟨⟨[k], run_one C K h⟩, hw, hx, hy⟩

theorem Keys.live {s t : St} {vault : Bytes} {w : World} {x y : Nat} {es : List Event} (hk : Keys C K s t)
    (h : Live C K vault w x y es s) : ∃ es', Live C K vault w x y es' t := by
  obtain ⟨⟨ks, e⟩, -⟩ := hk
  refine ⟨es ++ ks.map .key, h.locked, h.reach, ?_⟩
  rw [← List.cons_append, run_append C K _ _ _ h.goes]
  exact e

theorem keys_menu {vault : Bytes} {w : World} {x y : Nat} {es : List Event} {s : St} (h : Live C K vault w x y es s)
    (hu : s.world.sess.isUnlocked = true) : ∃ t, Keys C K s t ∧ t.cur = some (.live .menu) := by
  have hback : ∀ {es : List Event} {s : St}, Live C K vault w x y es s → AtItems s → ∃ t, Keys C K s t ∧ t.cur = some (.live .menu) := by
    intro es s h ha
    obtain ⟨vd, hvd⟩ := ha.details
    obtain ⟨vi, hvi⟩ := ha.items
    obtain ⟨vm, hvm⟩ := (h.inv C K).frame.menu
    obtain ⟨o, ho⟩ := goBack_run hvd hvi hvm
    exact ⟨_, .one .left ((press_bound C K (by simp) ha.cur rfl).trans ho) rfl rfl rfl, rfl⟩
  cases (h.inv C K).screen with
  | prompt ha => rw [ha.locked] at hu; cases hu
  | error ha => rw [ha.locked] at hu; cases hu
  | menu ha => exact ⟨s, .refl s, ha.cur⟩
  | items ha => exact hback h ha
  | details ha =>
    obtain ⟨vd, hvd⟩ := ha.details
    obtain ⟨vi, hvi⟩ := ha.items
    obtain ⟨vh, hvh⟩ := (h.inv C K).frame.help
    have h1 := Keys.one (C := C) (K := K) .tab ((press_bound C K (by simp) ha.cur rfl).trans (cover_run C hvd hvi hvh)) rfl rfl rfl
    obtain ⟨es', h2⟩ := h1.live h
    obtain ⟨t, h3, h4⟩ := hback h2 (atItems_of (h2.inv C K) rfl)
    exact ⟨t, h1.trans h3, h4⟩

theorem keys_first {vault : Bytes} {w : World} {x y : Nat} {es : List Event} {s : St} (h : Live C K vault w x y es s)
    (hc : s.cur = some (.live .menu)) {i : Nat} (hi : s.menuIdx = i) :
    ∃ t, Keys C K s t ∧ t.cur = some (.live .menu) ∧ t.menuIdx = 0 ∧ t.cats = s.cats := by
  induction i generalizing s es with
  | zero => exact ⟨s, .refl s, hc, hi, rfl⟩
  | succ i ih =>
    obtain ⟨vm, hvm⟩ := (h.inv C K).frame.menu
    have h1 := Keys.one (C := C) (K := K) .up ((press_bound C K (by simp) hc rfl).trans (menuUp_run hi hvm)) rfl rfl rfl
    obtain ⟨es', h2⟩ := h1.live h
    obtain ⟨t, h3, h4, h5, h6⟩ := ih h2 hc rfl
    exact ⟨t, h1.trans h3, h4, h5, h6⟩

theorem keys_entry {vault : Bytes} {w : World} {x y : Nat} {es : List Event} {s : St} (h : Live C K vault w x y es s)
    (hc : s.cur = some (.live .menu)) (n : Nat) {i : Nat} (hi : s.menuIdx = i) (hn : i + n < s.cats.length) :
    ∃ t, Keys C K s t ∧ t.cur = some (.live .menu) ∧ t.menuIdx = (i + n : Nat) ∧ t.cats = s.cats := by
  induction n generalizing i s es with
  | zero => exact ⟨s, .refl s, hc, hi, rfl⟩
  | succ n ih =>
    obtain ⟨vm, hvm⟩ := (h.inv C K).frame.menu
    have h1 := Keys.one (C := C) (K := K) .down ((press_bound C K (by simp) hc rfl).trans (menuDown_run hi (by omega) hvm)) rfl rfl rfl
    obtain ⟨es', h2⟩ := h1.live h
    obtain ⟨t, h3, h4, h5, h6⟩ := ih h2 hc rfl (by show i + 1 + n < s.cats.length; omega)
    exact ⟨t, h1.trans h3, h4, by rw [h5]; congr 1; omega, h6⟩

theorem keys_row {vault : Bytes} {w : World} {x y : Nat} {es : List Event} {s : St} (h : Live C K vault w x y es s)
    (hc : s.cur = some (.live .items)) (n : Nat) {i : Nat} (hi : s.itemIdx = i) (hn : i + n < s.items.length) :
    ∃ t, Keys C K s t ∧ t.cur = some (.live .items) ∧ t.itemIdx = (i + n : Nat) ∧ t.items = s.items := by
  induction n generalizing i s es with
  | zero => exact ⟨s, .refl s, hc, hi, rfl⟩
  | succ n ih =>
    have ha := atItems_of (h.inv C K) hc
    obtain ⟨vd, hvd⟩ := ha.details
    obtain ⟨vi, hvi⟩ := ha.items
    have h1 := Keys.one (C := C) (K := K) .down ((press_bound C K (by simp) hc rfl).trans (itemsDown_run C hi (by omega) hvd hvi)) rfl rfl rfl
    obtain ⟨es', h2⟩ := h1.live h
    obtain ⟨t, h3, h4, h5, h6⟩ := ih h2 hc rfl (by show i + 1 + n < s.items.length; omega)
    exact ⟨t, h1.trans h3, h4, by rw [h5]; congr 1; omega, h6⟩

/-- In the details pane, one step to a place that is one further or nearer. -/
theorem keys_place {vault : Bytes} {w : World} {x y : Nat} {es : List Event} {s : St} {v : View} (h : Live C K vault w x y es s)
    (hc : s.cur = some (.live .details)) (hv : s.views .details = some v) (p q : Nat) :
    ∃ t, Keys C K s t ∧ t.cur = some (.live .details) ∧ t.views .details = some { v with ox := p, oy := q } := by
  have right : ∀ (n : Nat) {es : List Event} {s : St} {v : View}, Live C K vault w x y es s → s.cur = some (.live .details) →
      s.views .details = some v → ∃ t, Keys C K s t ∧ t.cur = some (.live .details) ∧ t.views .details = some { v with ox := v.ox + n } := by
    intro n
    induction n with
    | zero => intro es s v h hc hv; exact ⟨s, .refl s, hc, hv⟩
    | succ n ih =>
      intro es s v h hc hv
      have h0 : scrollRight (.live .details) s =
          (.ok (), { s with views := setAt s.views .details (some { v with ox := v.ox + 1, oy := v.oy }) }) := by
        rw [scrollRight]
        simp only [look_bind, deref_live hv]
        exact setOrigin_run hv (v.ox + 1) v.oy
      have h1 := Keys.one (C := C) (K := K) .right ((press_bound C K (by simp) hc rfl).trans h0) rfl rfl rfl
      obtain ⟨es', h2⟩ := h1.live h
      obtain ⟨t, h3, h4, h5⟩ := ih h2 hc (by simp [setAt]; rfl)
      exact ⟨t, h1.trans h3, h4, by rw [h5]; simp only [Option.some.injEq]; congr 1; omega⟩
  have left : ∀ (n : Nat) {es : List Event} {s : St} {v : View}, Live C K vault w x y es s → s.cur = some (.live .details) →
      s.views .details = some v → v.ox = n → ∃ t, Keys C K s t ∧ t.cur = some (.live .details) ∧ t.views .details = some { v with ox := 0 } := by
    intro n
    induction n with
    | zero => intro es s v h hc hv h0; exact ⟨s, .refl s, hc, by rw [hv, ← h0]⟩
    | succ n ih =>
      intro es s v h hc hv hn
      have h0 : scrollLeft (.live .details) s =
          (.ok (), { s with views := setAt s.views .details (some { v with ox := n, oy := v.oy }) }) := by
        rw [scrollLeft]
        simp only [look_bind, deref_live hv]
        rw [if_pos (by omega), show ((v.ox : Int) - 1) = ((n : Nat) : Int) by omega]
        exact setOrigin_run hv n v.oy
      have h1 := Keys.one (C := C) (K := K) .left ((press_bound C K (by simp) hc rfl).trans h0) rfl rfl rfl
      obtain ⟨es', h2⟩ := h1.live h
      obtain ⟨t, h3, h4, h5⟩ := ih h2 hc (by simp [setAt]; rfl) rfl
      exact ⟨t, h1.trans h3, h4, h5⟩
  have down : ∀ (n : Nat) {es : List Event} {s : St} {v : View}, Live C K vault w x y es s → s.cur = some (.live .details) →
      s.views .details = some v → ∃ t, Keys C K s t ∧ t.cur = some (.live .details) ∧ t.views .details = some { v with oy := v.oy + n } := by
    intro n
    induction n with
    | zero => intro es s v h hc hv; exact ⟨s, .refl s, hc, hv⟩
    | succ n ih =>
      intro es s v h hc hv
      have h0 : scrollDown (.live .details) s =
          (.ok (), { s with views := setAt s.views .details (some { v with ox := v.ox, oy := v.oy + 1 }) }) := by
        rw [scrollDown]
        simp only [look_bind, deref_live hv]
        exact setOrigin_run hv v.ox (v.oy + 1)
      have h1 := Keys.one (C := C) (K := K) .down ((press_bound C K (by simp) hc rfl).trans h0) rfl rfl rfl
      obtain ⟨es', h2⟩ := h1.live h
      obtain ⟨t, h3, h4, h5⟩ := ih h2 hc (by simp [setAt]; rfl)
      exact ⟨t, h1.trans h3, h4, by rw [h5]; simp only [Option.some.injEq]; congr 1; omega⟩
  have up : ∀ (n : Nat) {es : List Event} {s : St} {v : View}, Live C K vault w x y es s → s.cur = some (.live .details) →
      s.views .details = some v → v.oy = n → ∃ t, Keys C K s t ∧ t.cur = some (.live .details) ∧ t.views .details = some { v with oy := 0 } := by
    intro n
    induction n with
    | zero => intro es s v h hc hv h0; exact ⟨s, .refl s, hc, by rw [hv, ← h0]⟩
    | succ n ih =>
      intro es s v h hc hv hn
      have h0 : scrollUp (.live .details) s =
          (.ok (), { s with views := setAt s.views .details (some { v with ox := v.ox, oy := n }) }) := by
        rw [scrollUp]
        simp only [look_bind, deref_live hv]
        rw [if_pos (by omega), show ((v.oy : Int) - 1) = ((n : Nat) : Int) by omega]
        exact setOrigin_run hv v.ox n
      have h1 := Keys.one (C := C) (K := K) .up ((press_bound C K (by simp) hc rfl).trans h0) rfl rfl rfl
      obtain ⟨es', h2⟩ := h1.live h
      obtain ⟨t, h3, h4, h5⟩ := ih h2 hc (by simp [setAt]; rfl) rfl
      exact ⟨t, h1.trans h3, h4, h5⟩
  obtain ⟨t1, k1, c1, v1⟩ := left v.ox h hc hv rfl
  obtain ⟨es1, l1⟩ := k1.live h
  obtain ⟨t2, k2, c2, v2⟩ := up v.oy l1 c1 v1 rfl
  obtain ⟨es2, l2⟩ := k2.live l1
  obtain ⟨t3, k3, c3, v3⟩ := right p l2 c2 v2
  obtain ⟨es3, l3⟩ := k3.live l2
  obtain ⟨t4, k4, c4, v4⟩ := down q l3 c3 v3
  exact ⟨t4, ((k1.trans k2).trans k3).trans k4, c4, by rw [v4]; simp⟩

variable (C K)

/-- C107. Whatever pane has the focus, some keys bring the details of any item of the open vault on the screen, with any
place of its text in the upper left corner of the pane. -/
theorem C107_reached (vault : Bytes) (w : World) (x y : Nat) (es : List Event) (s : St) (h : Live C K vault w x y es s)
    (hu : s.world.sess.isUnlocked = true) (hx : 6 ≤ s.maxX) (hy : 10 ≤ s.maxY) (i : Item) (hi : i ∈ held s.world.sess) (p q : Nat) :
    ∃ (ks : List Key) (t : St) (v : View), run C K (ks.map .key) s = (.ok (), t) ∧ t.world = s.world ∧
      t.cur = some (.live .details) ∧ t.views .details = some v ∧
      v.lines = textLines (detailsHead C.env i ++ detailsBody false i) ∧ v.ox = p ∧ v.oy = q := by
  obtain ⟨t1, k1, c1⟩ := keys_menu h hu
  obtain ⟨es1, l1⟩ := k1.live h
  have w1 : t1.world = s.world := k1.2.1
  have hu1 : t1.world.sess.isUnlocked = true := by rw [w1]; exact hu
  obtain ⟨hm, hlen⟩ := cats_length C K l1 hu1
  rw [w1] at hm hlen
  have ha := atMenu_of (l1.inv C K) c1
  -- the entry that lists it
  obtain ⟨k, e, hk, he, hlast⟩ : ∃ k e, (menuOf s.world.sess)[k]? = some e ∧ e.Holds i ∧
      (k + 1 < (menuOf s.world.sess).length ∨ ∃ i ∈ held s.world.sess, i.trashed = true) := by
    obtain ⟨cs, h1, h2, h3⟩ := hm
    by_cases ht : i.trashed = true
    · refine ⟨(menuOf s.world.sess).length - 1, .trash, ?_, ht, .inr ⟨i, hi, ht⟩⟩
      · rw [if_pos (⟨i, hi, ht⟩ : ∃ i ∈ held s.world.sess, i.trashed = true)] at h3
        rw [h3]
        simp
    · have ht : i.trashed = false := by simpa using ht
      rw [if_pos (⟨i, hi, ht⟩ : ∃ i ∈ held s.world.sess, i.trashed = false)] at h3
      have hc : i.category ∈ cs := (h2 _).2 ⟨i, hi, ht, rfl⟩
      refine ⟨0, .all, by rw [h3]; rfl, ht, .inl ?_⟩
      rw [h3]
      have := List.length_pos_of_mem hc
      simp
      omega
  have hkl := (List.getElem?_eq_some_iff.1 hk).1
  obtain ⟨j, hj⟩ : ∃ j : Nat, t1.menuIdx = j := by
    rcases ha.idx with h1 | h1
    · rw [h1.2] at hlen
      simp at hlen
      omega
    · exact ⟨t1.menuIdx.toNat, by omega⟩
  obtain ⟨t2, k2, c2, i2, n2⟩ := keys_first l1 c1 hj
  obtain ⟨es2, l2⟩ := k2.live l1
  obtain ⟨t3, k3, c3, i3, n3⟩ := keys_entry l2 c2 k (i := 0) i2 (by rw [n2]; omega)
  obtain ⟨es3, l3⟩ := k3.live l2
  have k13 := (k1.trans k2).trans k3
  have w3 : t3.world = s.world := k13.2.1
  obtain ⟨t4, h4⟩ := step_open C K (l3.inv C K) c3 (by rw [k13.2.2.1]; exact hx) (by rw [k13.2.2.2]; exact hy)
  obtain ⟨c4, p4, -, -, i4, -⟩ := C70_lists_partial C K vault w x y es3 t3 t4 .enter l3 c3 (.inr (.inr rfl)) h4
    (menuOf s.world.sess) e (by rw [w3]; exact hm) ⟨by omega, by rw [i3]; simpa using hk⟩
    (by rw [i3, w3]; exact hlast.imp (fun h => by push_cast; omega) id)
  have w4 : t4.world = t3.world := by
    obtain ⟨_, _, _, _, _, _, rfl⟩ := opening_step C K (l3.inv C K) h4 c3 (.inr (.inr rfl)) (by omega)
    rfl
  have k34 : Keys C K t3 t4 := by
    obtain ⟨_, _, _, _, _, _, rfl⟩ := opening_step C K (l3.inv C K) h4 c3 (.inr (.inr rfl)) (by omega)
    exact .one .enter h4 rfl rfl rfl
  obtain ⟨es4, l4⟩ := k34.live l3
  have hmem : summary i ∈ t4.items := by
    rw [p4.mem_iff, w3]
    exact List.mem_map_of_mem (List.mem_filter.2 ⟨hi, by simpa using he⟩)
  obtain ⟨r, hr⟩ := List.getElem?_of_mem hmem
  have hrl := (List.getElem?_eq_some_iff.1 hr).1
  obtain ⟨t5, k5, c5, i5, n5⟩ := keys_row l4 c4 r (i := 0) i4 (by omega)
  obtain ⟨es5, l5⟩ := k5.live l4
  have ha5 := atItems_of (l5.inv C K) c5
  obtain ⟨vd, hvd⟩ := ha5.details
  obtain ⟨vh, hvh⟩ := (l5.inv C K).frame.help
  have k6 := Keys.one (C := C) (K := K) .tab ((press_bound C K (by simp) ha5.cur rfl).trans
    (reveal_run C (k := 0 + r) (by rw [i5]) (by rw [n5]; omega) hvd hvh)) rfl rfl rfl
  obtain ⟨es6, l6⟩ := k6.live l5
  obtain ⟨v6, hv6⟩ := (atDetails_of (l6.inv C K) rfl).details
  have w5 : t5.world = s.world := k5.2.1.trans (k34.2.1.trans w3)
  have hlines : v6.lines = textLines (detailsHead C.env i ++ detailsBody false i) := by
    rcases C85_details C K vault w x y es6 _ l6 v6 hv6 with ⟨h1, -⟩ | ⟨r', i', h1, h2, h3, h4⟩
    · have : t5.items = [] := h1
      rw [n5] at this
      rw [this] at hrl
      simp at hrl
    · have h1' : t5.items[t5.itemIdx.toNat]? = some r' := h1
      rw [n5, i5] at h1'
      simp only [Nat.zero_add, Int.toNat_natCast] at h1'
      rw [hr] at h1'
      cases h1'
      have h2' : i' ∈ held t5.world.sess := h2
      rw [w5] at h2'
      have hii : i' = i := by
        have hn : ((held s.world.sess).map (·.uid)).Nodup := by
          have hR := h.session C K
          unfold held
          cases hi : s.world.sess.items with
          | none => simp
          | some l => exact hR.inv.uids l hi
        have hu : i'.uid = i.uid := congrArg SimpleItem.uid h3
        exact List.inj_on_of_nodup_map hn h2' hi hu
      subst hii
      simpa using h4
  obtain ⟨t7, k7, c7, v7⟩ := keys_place l6 rfl hv6 p q
  have kall := (((k13.trans k34).trans k5).trans k6).trans k7
  obtain ⟨⟨ks, hks⟩, hw, -⟩ := kall
  exact ⟨ks, t7, _, hks, hw, c7, v7, hlines, rfl, rfl⟩

theorem Trans.size {s t : St} {k : Key} (h : Trans C K s (.key k) t) : t.maxX = s.maxX ∧ t.maxY = s.maxY := by
  generalize he : Event.key k = e at h
  cases h <;> first | exact ⟨rfl, rfl⟩ | cases he

/-- C107 and C88. The owner of a vault that a conforming writer made, who has typed its password, sees every entry of a known
category in the GUI: ENTER and some more keys bring it on the screen. -/
theorem C107_owner (vault : Bytes) (w : World) (x y : Nat) (es : List Event) (s : St) (h : Live C K vault w x y es s)
    (hval : Session.init.validate s.world.disk vault = .ret (.ok (), w.sess))
    (hc : s.cur = some (.live .prompt)) (v : View) (hv : s.views .prompt = some v) (p : Bytes) (hs : v.shown = [p])
    (hp : Str.Bare p) (h0 : 0 ∉ p) (entries : List Record) (hvault : VaultOn C.env s.world.disk vault p entries)
    (hx : 6 ≤ s.maxX) (hy : 10 ≤ s.maxY) (e : Record) (he : e ∈ entries) (hk : KnownRecord e) :
    ∃ (i : Item) (ks : List Key) (t : St) (v : View), ShowsRecord C.env e i ∧
      run C K (.key .enter :: ks.map .key) s = (.ok (), t) ∧ t.cur = some (.live .details) ∧ t.views .details = some v ∧
      v.lines = textLines (detailsHead C.env i ++ detailsBody false i) := by
  have hR := h.session C K
  have hkept := h.kept C K
  have hlock : s.world.sess.isUnlocked = false := (atPrompt_of (h.inv C K) hc).locked
  obtain ⟨s1, s2, items, h1, h2, h3, h4, h5⟩ := C88_opens C.env (K.order s.opened) s.world.disk vault p entries hvault
    { s.world.sess with profile := none } rfl (hkept.locked hlock) hR.inv.reg
  have hs1 : s1 = s.world.sess := by
    unfold Session.validate at h1 hval
    rw [Out.bind_eq_ret] at h1 hval
    obtain ⟨⟨r, P⟩, e1, h1⟩ := h1
    obtain ⟨⟨r', P'⟩, e2, hval⟩ := hval
    have : (r, P) = (r', P') := by
      have e2' : Repo.validateVault s.world.disk vault none = .ret (r', P') := e2
      have e1' : Repo.validateVault s.world.disk vault none = .ret (r, P) := e1
      rw [e2'] at e1'
      exact (Out.ret.inj e1').symm
    cases this
    simp only [Out.pure_eq, Out.ret.injEq, Prod.mk.injEq] at h1 hval
    have hP : s.world.sess.profile = P := by rw [hkept.profile, ← hval.2]
    rw [← h1.2, ← hP]
  rw [hs1] at h2
  obtain ⟨t, g1, g2, g3, g4⟩ := (C92_shown_partial C K vault w x y es s h hc v hv p hs hp h0).1 s2 h2
  have hsize := (inv_step C K (h.inv C K) g1).1.size C K
  -- the entry's item
  obtain ⟨i, hi, hsh⟩ : ∃ i ∈ items, ShowsRecord C.env e i := by
    obtain ⟨⟨t, ht⟩, ⟨u, hu⟩, ⟨n, hn⟩, l, hl⟩ := hvault.types e he
    obtain ⟨c, hc, hcode⟩ := hk
    have : ShowsRecord C.env e ⟨⟨e.category, c.2⟩, e.created, n, t, e.trashed, if l = [] then none else some l, e.uid, u, e.updated⟩ :=
      ⟨rfl, rfl, rfl, rfl, ⟨by rw [← hcode]; exact hc, rfl⟩, ht, hu, hn, l, hl, rfl⟩
    exact ⟨_, (h5 _).2 ⟨e, he, ⟨c, hc, hcode⟩, this⟩, this⟩
  obtain ⟨ks, t', v', r1, -, r3, r4, r5, -⟩ := C107_reached C K vault w x y _ t (h.then C K g1) g3 (by rw [hsize.1]; exact hx)
    (by rw [hsize.2]; exact hy) i (by unfold held; rw [g4, h3]; exact hi) 0 0
  exact ⟨i, ks, t', v', hsh, by rw [run_cons, bind_ok g1]; exact r1, r3, r4, r5⟩

/-! ### Examples -/

namespace Demo

/-- The item that is last in the menu. -/
def goneTo : List Event := opening ++ [.key .down, .key .down, .key .down, .key .enter, .key .tab, .key .down, .flush 80 24]

end Demo

set_option maxRecDepth 20000 in
/-- C107: an open vault on a small terminal, with two items and one in the trash. -/
example : let s := (Demo.goOn 8 11 (Demo.disk b!"1234" b!"memo") (Demo.keys OnePass.Demo.pa ++ [.flush 8 11, .key .enter])).2
    s.world.sess.isUnlocked = true ∧ s.maxX = 8 ∧ s.maxY = 11 ∧ (held s.world.sess).length = 3 := by decide +kernel

set_option maxRecDepth 20000 in
/-- The item in the trash of the sample, scrolled by one line. -/
example : (Demo.go (Demo.disk b!"1234" b!"memo") Demo.goneTo).1 = .ok () ∧
    ((Demo.go (Demo.disk b!"1234" b!"memo") Demo.goneTo).2.views .details).map (fun v => (v.oy, v.lines[2]?)) =
      some (1, some b!"Old") := by decide +kernel

namespace Demo

/-- The vault of C88 has been validated and its password typed. -/
def ownWorld : World :=
  match Session.init.validate VaultDemo.disk b!"/v" with
  | .ret (_, s) => { Toy.world VaultDemo.disk [] with sess := s }
  | _ => Toy.world VaultDemo.disk []

def typed : Res Unit × St :=
  run ctx kit (.flush 80 24 :: (keys VaultDemo.password ++ [.flush 80 24])) (start b!"/v" ownWorld)

end Demo

set_option maxRecDepth 20000 in
/-- C107: the owner of the vault of C88 finds both entries, also the one in the trash. -/
example (e : Record) (he : e = VaultDemo.eA ∨ e = VaultDemo.eB) : ∃ (i : Item) (ks : List Key) (t : St) (v : View),
    ShowsRecord Env.toy e i ∧ run Demo.ctx Demo.kit (.key .enter :: ks.map .key) Demo.typed.2 = (.ok (), t) ∧
    t.cur = some (.live .details) ∧ t.views .details = some v ∧
    v.lines = textLines (detailsHead Env.toy i ++ detailsBody false i) := by
  have h1 : Demo.typed.1 = .ok () := by decide +kernel
  have h2 : Demo.typed.2.cur = some (.live .prompt) := by decide +kernel
  have h3 : (Demo.typed.2.views .prompt).map (·.shown) = some [VaultDemo.password] := by decide +kernel
  have h4 : Demo.typed.2.maxX = 80 ∧ Demo.typed.2.maxY = 24 := by decide +kernel
  have h5 : Demo.typed.2.world.disk = VaultDemo.disk := by decide +kernel
  have h6 : ∃ s, Session.init.validate VaultDemo.disk b!"/v" = .ret (.ok (), s) := by
    obtain ⟨s1, _, _, h, _⟩ := C88_opens Env.toy .doc VaultDemo.disk b!"/v" VaultDemo.password _ VaultDemo.vaultOn Session.init
      rfl rfl (List.Perm.refl _)
    exact ⟨s1, h⟩
  obtain ⟨s1, h6⟩ := h6
  have hw : Demo.ownWorld = { Toy.world VaultDemo.disk [] with sess := s1 } := by
    unfold Demo.ownWorld
    rw [h6]
  have hl : Live Demo.ctx Demo.kit b!"/v" Demo.ownWorld 80 24 (Demo.keys VaultDemo.password ++ [.flush 80 24]) Demo.typed.2 := by
    refine ⟨by decide +kernel, ?_, ?_⟩
    · rw [hw]
      exact ⟨VaultDemo.disk, [.validate b!"/v"], [Session.answerErr (.ok ())], VaultDemo.disk,
        by simp only [Session.run, Session.step, h6, Out.ret_bind, Out.pure_eq]⟩
    · rw [← Demo.typed.eq_1, ← h1]
  obtain ⟨r, hr⟩ : ∃ r, Demo.typed = r := ⟨_, rfl⟩
  rw [hr] at h1 h2 h3 h4 h5 hl ⊢
  clear hr
  obtain ⟨v, hv, hs⟩ := Option.map_eq_some_iff.1 h3
  refine C107_owner Demo.ctx Demo.kit b!"/v" Demo.ownWorld 80 24 _ r.2 hl (by rw [h5, hw]; exact h6) h2 v hv VaultDemo.password hs
    ((Str.bare_iff _).2 (by decide +kernel)) (by decide +kernel) _ (by rw [h5]; exact VaultDemo.vaultOn) (by omega) (by omega) e ?_ ?_
  · rcases he with rfl | rfl <;> simp
  · rcases he with rfl | rfl <;> (unfold KnownRecord; decide +kernel)

end Gui
end OnePass
