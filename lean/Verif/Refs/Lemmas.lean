import Verif.Refs.Spec
/-
The invariant behind the reference counts: the count of every object is the number of pointers to it.
-/
namespace Libinput.Refs
open Spec

/-- Pointers go from events to devices and from devices to the rest. -/
def rank : Kind → Nat
  | .event _ => 2
  | .dev _ _ => 1
  | _ => 0

/-- The device the objects an object points to belong to. -/
def owner (x : Nat) : Kind → Nat
  | .event d => d
  | _ => x

theorem sum_change (n j : Nat) (f g : Nat → Nat) (hj : j < n) (h : ∀ x, x ≠ j → f x = g x) :
    ((List.range n).map f).sum + g j = ((List.range n).map g).sum + f j := by
  induction n with
  | zero => omega
  | succ n ih =>
    simp only [List.range_succ, List.map_append, List.map_cons, List.map_nil, List.sum_append, List.sum_cons, List.sum_nil]
    by_cases e : j = n
    · subst e
      have : ((List.range j).map f).sum = ((List.range j).map g).sum := by
        congr 1
        apply List.map_congr_left
        intro x hx
        exact h x (by have := List.mem_range.mp hx; omega)
      omega
    · have := ih (by omega)
      have := h n (fun e' => e e'.symm)
      omega

theorem sum_same (n : Nat) (f g : Nat → Nat) (h : ∀ x, x < n → f x = g x) :
    ((List.range n).map f).sum = ((List.range n).map g).sum := by
  congr 1
  apply List.map_congr_left
  intro x hx
  exact h x (List.mem_range.mp hx)

theorem sum_pos (n j : Nat) (f : Nat → Nat) (hj : j < n) (h : 0 < f j) : 0 < ((List.range n).map f).sum := by
  have := sum_change n j f (fun x => if x = j then 0 else f x) hj (by intro x hx; simp [hx])
  simp at this
  omega

theorem pos_of_sum (n : Nat) (f : Nat → Nat) (h : 0 < ((List.range n).map f).sum) : ∃ j, j < n ∧ 0 < f j := by
  induction n with
  | zero => simp at h
  | succ n ih =>
    simp only [List.range_succ, List.map_append, List.map_cons, List.map_nil, List.sum_append, List.sum_cons, List.sum_nil] at h
    by_cases e : 0 < f n
    · exact ⟨n, by omega, e⟩
    · obtain ⟨j, hj, hf⟩ := ih (by omega)
      exact ⟨j, by omega, hf⟩

/-- The pointers from object `o` at `x` to `i`, unless it is gone or (in `D`) about to go. -/
def wt (D : List Nat) (x : Nat) (o : Obj) (i : Nat) : Nat :=
  if o.alive = true ∧ x ∉ D then o.out.count i else 0

def wtAt (s : State) (D : List Nat) (x i : Nat) : Nat :=
  match s.heap[x]? with
  | some o => wt D x o i
  | none => 0

/-- The pointers from other objects. -/
def inc (s : State) (D : List Nat) (i : Nat) : Nat := ((List.range s.heap.length).map (fun x => wtAt s D x i)).sum

/-- The pointer from the context's lists. -/
def ctxOf (udev : Bool) (o : Obj) : Nat :=
  match o.kind with
  | .dev _ _ => if o.linked then 1 else 0
  | .seat _ => if udev then 0 else 1
  | .tool _ _ => if o.home = none then 1 else 0
  | _ => 0

def ctx (s : State) (i : Nat) : Nat :=
  match s.heap[i]? with
  | some o => ctxOf s.udev o
  | none => 0

/-- All there is that holds `i`: `p` are the references of the function that is running. -/
def total (p : Nat → Nat) (D : List Nat) (s : State) (c : Client) (i : Nat) : Nat :=
  ctx s i + s.queue.count i + c.held.count i + c.refs i + p i + inc s D i

structure Wf (s : State) (c : Client) : Prop where
  out : ∀ (x : Nat) (o : Obj), s.heap[x]? = some o → ∀ y ∈ o.out, ∃ oy, s.heap[y]? = some oy ∧
    rank oy.kind < rank o.kind ∧ (oy.home = none ∨ oy.home = some (owner x o.kind))
  home : ∀ (x : Nat) (o : Obj) (h : Nat), s.heap[x]? = some o → o.home = some h →
    (o.kind = .mode ∨ ∃ ty ser, o.kind = .tool ty ser) ∧ ∃ oh, s.heap[h]? = some oh
  last : ∀ (x : Nat) (o : Obj) (d : Nat), s.heap[x]? = some o → o.kind = .event d →
    (∃ l, o.out = l ++ [d] ∧ ∀ (y : Nat) (oy : Obj), y ∈ l → s.heap[y]? = some oy → rank oy.kind = 0) ∧
    (∃ od sys seat, s.heap[d]? = some od ∧ od.kind = .dev sys seat) ∧ (o.alive = true → o.refs = 1)
  seat : ∀ (x : Nat) (o : Obj) (sys st : Nat), s.heap[x]? = some o → o.kind = .dev sys st →
    (o.linked = true → st ∈ o.out) ∧ ∃ os n, s.heap[st]? = some os ∧ os.kind = .seat n
  linked : ∀ (x : Nat) (o : Obj), s.heap[x]? = some o → o.linked = true → ∃ sys st, o.kind = .dev sys st
  events : ∀ e, e ∈ s.queue ∨ e ∈ c.held → ∃ o d, s.heap[e]? = some o ∧ o.kind = .event d
  refs : ∀ i, 0 < c.refs i → ∃ o, s.heap[i]? = some o ∧ ∀ d, o.kind ≠ .event d

structure Inv (p : Nat → Nat) (D : List Nat) (s : State) (c : Client) : Prop where
  wf : Wf s c
  live : ∀ (i : Nat) (o : Obj), s.heap[i]? = some o → o.alive = true → i ∉ D →
    o.refs = total p D s c i ∧ 0 < total p D s c i
  dead : ∀ (i : Nat) (o : Obj), s.heap[i]? = some o → o.alive = false ∨ i ∈ D → total p D s c i = 0
  dying : ∀ i ∈ D, ∃ o, s.heap[i]? = some o ∧ o.alive = true

theorem Inv.congr {p q : Nat → Nat} {D s c} (h : Inv p D s c) (e : ∀ i, p i = q i) : Inv q D s c := by
  have : p = q := funext e
  exact this ▸ h

theorem lt_of_some {l : List Obj} {i : Nat} {o : Obj} (h : l[i]? = some o) : i < l.length := by
  rw [List.getElem?_eq_some_iff] at h
  exact h.1

theorem put_get (s : State) (i : Nat) (o : Obj) (x : Nat) :
    (put s i o).heap[x]? = if i = x then (if i < s.heap.length then some o else none) else s.heap[x]? := by
  simp only [put, List.getElem?_set]

theorem put_get_self {s : State} {i : Nat} {o o' : Obj} (h : s.heap[i]? = some o) : (put s i o').heap[i]? = some o' := by
  rw [put_get, if_pos rfl, if_pos (lt_of_some h)]

theorem put_get_ne {s : State} {i x : Nat} {o' : Obj} (h : i ≠ x) : (put s i o').heap[x]? = s.heap[x]? := by
  rw [put_get, if_neg h]

theorem not_mem_self {s : State} {c : Client} (h : Wf s c) {i : Nat} {o : Obj} (ho : s.heap[i]? = some o) : i ∉ o.out := by
  intro hi
  obtain ⟨oy, hy, hr, _⟩ := h.out i o ho i hi
  rw [ho] at hy
  cases hy
  omega

theorem inc_put (s : State) (D D' : List Nat) (j : Nat) (o o' : Obj) (hj : s.heap[j]? = some o)
    (hD : ∀ i, i ≠ j → (i ∈ D' ↔ i ∈ D)) (i : Nat) :
    inc (put s j o') D' i + wt D j o i = inc s D i + wt D' j o' i := by
  have hl : (put s j o').heap.length = s.heap.length := by simp [put]
  unfold inc
  rw [hl]
  have := sum_change s.heap.length j (fun x => wtAt (put s j o') D' x i) (fun x => wtAt s D x i) (lt_of_some hj) (by
    intro x hx
    simp only [wtAt]
    rw [put_get_ne (fun e => hx e.symm)]
    split
    · simp only [wt, hD x hx]
    · rfl)
  have e1 : wtAt (put s j o') D' j i = wt D' j o' i := by simp only [wtAt, put_get_self hj]
  have e2 : wtAt s D j i = wt D j o i := by simp only [wtAt, hj]
  simp only [e1, e2] at this
  exact this

theorem wt_self {s : State} {c : Client} (h : Wf s c) {i : Nat} {o : Obj} (ho : s.heap[i]? = some o) (D : List Nat) :
    wt D i o i = 0 := by
  unfold wt
  split
  · exact List.count_eq_zero.mpr (not_mem_self h ho)
  · rfl

theorem ctx_ne (s : State) (j i : Nat) (o' : Obj) (h : j ≠ i) : ctx (put s j o') i = ctx s i := by
  simp only [ctx, put_get_ne h]
  rfl

theorem Inv.update {p p' : Nat → Nat} {D D' : List Nat} {s : State} {c c' : Client} (h : Inv p D s c) {j : Nat} {o o' : Obj}
    (hj : s.heap[j]? = some o) (hwf : Wf (put s j o') c')
    (hD : ∀ i, i ≠ j → (i ∈ D' ↔ i ∈ D)) (hDj : j ∈ D' → o'.alive = true)
    (hoth : ∀ i, i ≠ j → c'.held.count i + c'.refs i + p' i + wt D' j o' i = c.held.count i + c.refs i + p i + wt D j o i)
    (hlive : o'.alive = true → j ∉ D' →
      o'.refs = ctxOf s.udev o' + s.queue.count j + c'.held.count j + c'.refs j + p' j + inc s D j ∧ 0 < o'.refs)
    (hdead : o'.alive = false ∨ j ∈ D' →
      ctxOf s.udev o' + s.queue.count j + c'.held.count j + c'.refs j + p' j + inc s D j = 0) :
    Inv p' D' (put s j o') c' := by
  have hself : total p' D' (put s j o') c' j =
      ctxOf s.udev o' + s.queue.count j + c'.held.count j + c'.refs j + p' j + inc s D j := by
    have e := inc_put s D D' j o o' hj hD j
    rw [wt_self h.wf hj, wt_self hwf (put_get_self hj)] at e
    simp only [total, ctx, put_get_self hj]
    have : (put s j o').queue = s.queue := rfl
    have : (put s j o').udev = s.udev := rfl
    simp only [*]
    omega
  have hother : ∀ i, i ≠ j → total p' D' (put s j o') c' i = total p D s c i := by
    intro i hi
    have e := inc_put s D D' j o o' hj hD i
    have e2 := hoth i hi
    have : (put s j o').queue = s.queue := rfl
    simp only [total, ctx_ne s j i o' (fun e => hi e.symm), this]
    omega
  refine ⟨hwf, ?_, ?_, ?_⟩
  · intro i oi hi ha hd
    by_cases e : i = j
    · subst e
      rw [put_get_self hj] at hi
      cases hi
      rw [hself]
      have := hlive ha hd
      omega
    · rw [put_get_ne (fun e' => e e'.symm)] at hi
      rw [hother i e]
      exact h.live i oi hi ha (fun hm => hd ((hD i e).mpr hm))
  · intro i oi hi ha
    by_cases e : i = j
    · subst e
      rw [put_get_self hj] at hi
      cases hi
      rw [hself]
      exact hdead ha
    · rw [put_get_ne (fun e' => e e'.symm)] at hi
      rw [hother i e]
      exact h.dead i oi hi (ha.imp_right (hD i e).mp)
  · intro i hi
    by_cases e : i = j
    · subst e
      exact ⟨o', put_get_self hj, hDj hi⟩
    · obtain ⟨oi, h1, h2⟩ := h.dying i ((hD i e).mp hi)
      exact ⟨oi, by rw [put_get_ne (fun e' => e e'.symm)]; exact h1, h2⟩

/-- Pointers stay good if an object changes but for its kind and place. -/
theorem Wf.put {s : State} {c : Client} (h : Wf s c) {j : Nat} {o o' : Obj} (hj : s.heap[j]? = some o)
    (hk : o'.kind = o.kind) (hh : o'.home = o.home)
    (hout : ∀ y ∈ o'.out, ∃ oy, s.heap[y]? = some oy ∧ rank oy.kind < rank o.kind ∧
      (oy.home = none ∨ oy.home = some (owner j o.kind)))
    (hev : ∀ d, o.kind = .event d → o'.out = o.out ∧ (o'.alive = true → o'.refs = 1))
    (hseat : ∀ sys st, o.kind = .dev sys st → o'.linked = true → st ∈ o'.out)
    (hlinked : o'.linked = true → ∃ sys st, o.kind = .dev sys st) : Wf (put s j o') c := by
  have look : ∀ (y : Nat) (oy : Obj), s.heap[y]? = some oy → ∃ oy', (Refs.put s j o').heap[y]? = some oy' ∧ oy'.kind = oy.kind ∧
      oy'.home = oy.home := by
    intro y oy hy
    by_cases e : j = y
    · subst e
      rw [hj] at hy
      cases hy
      exact ⟨o', put_get_self hj, hk, hh⟩
    · exact ⟨oy, by rw [put_get_ne e]; exact hy, rfl, rfl⟩
  have back : ∀ (y : Nat) (oy' : Obj), (Refs.put s j o').heap[y]? = some oy' → ∃ oy, s.heap[y]? = some oy ∧ oy'.kind = oy.kind ∧
      oy'.home = oy.home := by
    intro y oy' hy
    by_cases e : j = y
    · subst e
      rw [put_get_self hj] at hy
      cases hy
      exact ⟨o, hj, hk, hh⟩
    · rw [put_get_ne e] at hy
      exact ⟨oy', hy, rfl, rfl⟩
  refine ⟨?_, ?_, ?_, ?_, ?_, ?_, ?_⟩
  · intro x ox hx y hy
    by_cases e : j = x
    · subst e
      rw [put_get_self hj] at hx
      cases hx
      obtain ⟨oy, h1, h2, h3⟩ := hout y hy
      obtain ⟨oy', h4, h5, h6⟩ := look y oy h1
      exact ⟨oy', h4, by rw [h5, hk]; exact h2, by rw [h6, hk]; exact h3⟩
    · rw [put_get_ne e] at hx
      obtain ⟨oy, h1, h2, h3⟩ := h.out x ox hx y hy
      obtain ⟨oy', h4, h5, h6⟩ := look y oy h1
      exact ⟨oy', h4, by rw [h5]; exact h2, by rw [h6]; exact h3⟩
  · intro x ox hm hx hxh
    obtain ⟨o1, h1, h2, h3⟩ := back x ox hx
    obtain ⟨h4, oh, h5⟩ := h.home x o1 hm h1 (h3 ▸ hxh)
    obtain ⟨oh', h6, _, _⟩ := look hm oh h5
    exact ⟨h2 ▸ h4, oh', h6⟩
  · intro x ox d hx hxk
    obtain ⟨o1, h1, h2, h3⟩ := back x ox hx
    obtain ⟨⟨l, h4, h5⟩, ⟨od, sys, seat, h6, h7⟩, h8⟩ := h.last x o1 d h1 (h2 ▸ hxk)
    obtain ⟨od', h9, h10, _⟩ := look d od h6
    have hsame : ox.out = o1.out ∧ (ox.alive = true → ox.refs = 1) := by
      by_cases e : j = x
      · subst e
        rw [hj] at h1
        cases h1
        rw [put_get_self hj] at hx
        cases hx
        exact hev d (hk ▸ hxk)
      · rw [put_get_ne e] at hx
        rw [hx] at h1
        cases h1
        exact ⟨rfl, h8⟩
    refine ⟨⟨l, hsame.1 ▸ h4, ?_⟩, ⟨od', sys, seat, h9, h10 ▸ h7⟩, hsame.2⟩
    intro y oy hy hyl
    obtain ⟨oy1, h11, h12, _⟩ := back y oy hyl
    rw [h12]
    exact h5 y oy1 hy h11
  · intro x ox sys st hx hxk
    by_cases e : j = x
    · subst e
      rw [put_get_self hj] at hx
      cases hx
      obtain ⟨_, os, n, h2, h3⟩ := h.seat j o sys st hj (hk ▸ hxk)
      obtain ⟨os', h4, h5, _⟩ := look st os h2
      exact ⟨hseat sys st (hk ▸ hxk), os', n, h4, h5 ▸ h3⟩
    · rw [put_get_ne e] at hx
      obtain ⟨h1, os, n, h2, h3⟩ := h.seat x ox sys st hx hxk
      obtain ⟨os', h4, h5, _⟩ := look st os h2
      exact ⟨h1, os', n, h4, h5 ▸ h3⟩
  · intro x ox hx hxl
    by_cases e : j = x
    · subst e
      rw [put_get_self hj] at hx
      cases hx
      rw [hk]
      exact hlinked hxl
    · rw [put_get_ne e] at hx
      exact h.linked x ox hx hxl
  · intro e he
    obtain ⟨oe, d, h1, h2⟩ := h.events e he
    obtain ⟨oe', h3, h4, _⟩ := look e oe h1
    exact ⟨oe', d, h3, h4 ▸ h2⟩
  · intro i hi
    obtain ⟨oi, h1, h2⟩ := h.refs i hi
    obtain ⟨oi', h3, h4, _⟩ := look i oi h1
    exact ⟨oi', h3, by rw [h4]; exact h2⟩

/-- Only the count or the life of an object changes. -/
theorem Wf.put' {s : State} {c : Client} (h : Wf s c) {j : Nat} {o : Obj} (hj : s.heap[j]? = some o) (r : Nat) (a : Bool)
    (hev : ∀ d, o.kind = .event d → a = true → r = 1) : Wf (Refs.put s j { o with refs := r, alive := a }) c := by
  refine h.put (o' := { o with refs := r, alive := a }) hj rfl rfl (fun y hy => h.out j o hj y hy)
    (fun d hd => ⟨rfl, hev d hd⟩) ?_ (fun hl => h.linked j o hj hl)
  intro sys st hk hl
  exact (h.seat j o sys st hj hk).1 hl

def addl (p : Nat → Nat) (l : List Nat) : Nat → Nat := fun i => p i + l.count i

theorem fetch_ok {s : State} {i : Nat} {o : Obj} (h : s.heap[i]? = some o) (ha : o.alive = true) : fetch s i = .ok o := by
  simp [fetch, h, ha]

/-- What has a holder is there. -/
theorem Inv.alive {p : Nat → Nat} {D s c} (h : Inv p D s c) {i : Nat} {o : Obj} (hi : s.heap[i]? = some o)
    (hp : 0 < total p D s c i) : o.alive = true ∧ i ∉ D := by
  constructor
  · cases ha : o.alive with
    | true => rfl
    | false => have := h.dead i o hi (.inl ha); omega
  · intro hd
    have := h.dead i o hi (.inr hd)
    omega

theorem total_addl (p : Nat → Nat) (l : List Nat) (D s c i) : total (addl p l) D s c i = total p D s c i + l.count i := by
  simp only [total, addl]
  omega

theorem rank_zero_out {s : State} {c : Client} (h : Wf s c) {i : Nat} {o : Obj} (hi : s.heap[i]? = some o)
    (hr : rank o.kind = 0) : o.out = [] := by
  cases ho : o.out with
  | nil => rfl
  | cons y l =>
    obtain ⟨oy, _, h2, _⟩ := h.out i o hi y (by simp [ho])
    omega

theorem wt_upd (D : List Nat) (x : Nat) (o : Obj) (r : Nat) (i : Nat) : wt D x { o with refs := r } i = wt D x o i := rfl

theorem ref_ok {p : Nat → Nat} {D s c} (h : Inv p D s c) {i : Nat} {o : Obj} (hi : s.heap[i]? = some o)
    (ha : o.alive = true) (hD : i ∉ D) (hk : ∀ d, o.kind ≠ .event d) :
    ref s i = .ok (put s i { o with refs := o.refs + 1 }) ∧
    Inv (addl p [i]) D (put s i { o with refs := o.refs + 1 }) c := by
  refine ⟨by simp [ref, fetch_ok hi ha, Bind.bind, Except.bind], ?_⟩
  obtain ⟨h1, h2⟩ := h.live i o hi ha hD
  refine h.update hi (h.wf.put' hi _ _ (fun d hd => absurd hd (hk d))) (fun _ _ => Iff.rfl) (fun _ => ha) ?_ ?_ ?_
  · intro j hj
    have : ([i] : List Nat).count j = 0 := List.count_eq_zero.mpr (by simp [hj])
    simp only [addl, this, Nat.add_zero, wt_upd]
  · intro _ _
    simp only [addl, List.count_singleton_self, total, ctx, hi, ctxOf] at *
    omega
  · intro h3
    rcases h3 with h3 | h3
    · rw [ha] at h3
      cases h3
    · exact absurd h3 hD

/-- What an operation leaves alone. -/
structure Frame (k : Nat) (s s' : State) : Prop where
  udev : s'.udev = s.udev
  queue : s'.queue = s.queue
  len : s'.heap.length = s.heap.length
  objs : ∀ (x : Nat) (o : Obj), s.heap[x]? = some o → ∃ o', s'.heap[x]? = some o' ∧ o'.kind = o.kind ∧ o'.out = o.out ∧
    o'.home = o.home ∧ o'.linked = o.linked ∧ (o'.alive = true → o.alive = true) ∧ (k ≤ rank o.kind → o' = o)

theorem Frame.refl (k : Nat) (s : State) : Frame k s s :=
  ⟨rfl, rfl, rfl, fun _ o h => ⟨o, h, rfl, rfl, rfl, rfl, id, fun _ => rfl⟩⟩

theorem Frame.trans {k : Nat} {a b c : State} (h1 : Frame k a b) (h2 : Frame k b c) : Frame k a c := by
  refine ⟨h2.udev.trans h1.udev, h2.queue.trans h1.queue, h2.len.trans h1.len, ?_⟩
  intro x o hx
  obtain ⟨o1, a1, a2, a3, a4, a5, a6, a7⟩ := h1.objs x o hx
  obtain ⟨o2, b1, b2, b3, b4, b5, b6, b7⟩ := h2.objs x o1 a1
  exact ⟨o2, b1, b2.trans a2, b3.trans a3, b4.trans a4, b5.trans a5, fun h => a6 (b6 h),
    fun h => (b7 (a2 ▸ h)).trans (a7 h)⟩

theorem Frame.mono {k k' : Nat} (h : k ≤ k') {a b : State} (hf : Frame k a b) : Frame k' a b := by
  refine ⟨hf.udev, hf.queue, hf.len, ?_⟩
  intro x o hx
  obtain ⟨o1, a1, a2, a3, a4, a5, a6, a7⟩ := hf.objs x o hx
  exact ⟨o1, a1, a2, a3, a4, a5, a6, fun hh => a7 (by omega)⟩

theorem Frame.put {s : State} {i : Nat} {o : Obj} (hi : s.heap[i]? = some o) (r : Nat) (a : Bool)
    (ha : a = true → o.alive = true) : Frame (rank o.kind + 1) s (Refs.put s i { o with refs := r, alive := a }) := by
  refine ⟨rfl, rfl, by simp [Refs.put], ?_⟩
  intro x ox hx
  by_cases e : i = x
  · subst e
    rw [hi] at hx
    cases hx
    exact ⟨_, put_get_self hi, rfl, rfl, rfl, rfl, ha, fun h => by omega⟩
  · exact ⟨ox, by rw [put_get_ne e]; exact hx, rfl, rfl, rfl, rfl, id, fun _ => rfl⟩

theorem unrefLeaf_ok {p : Nat → Nat} {D s c} {i : Nat} (h : Inv (addl p [i]) D s c) {o : Obj} (hi : s.heap[i]? = some o)
    (hr : rank o.kind = 0) (hh : ∀ x, o.home = some x → ∃ ox, s.heap[x]? = some ox ∧ ox.alive = true) :
    ∃ s', unrefLeaf s i = .ok s' ∧ Inv p D s' c ∧ Frame 1 s s' := by
  have hpos : 0 < total (addl p [i]) D s c i := by rw [total_addl]; simp
  obtain ⟨ha, hD⟩ := h.alive hi hpos
  obtain ⟨h1, h2⟩ := h.live i o hi ha hD
  have hne : o.refs ≠ 0 := by omega
  have hke : ∀ d, o.kind ≠ .event d := by intro d e; rw [e] at hr; cases hr
  have hout := rank_zero_out h.wf hi hr
  have hoth : ∀ (a : Bool) j, j ≠ i → c.held.count j + c.refs j + p j + wt D i { o with refs := o.refs - 1, alive := a } j =
      c.held.count j + c.refs j + addl p [i] j + wt D i o j := by
    intro a j hj
    have : ([i] : List Nat).count j = 0 := List.count_eq_zero.mpr (by simp [hj])
    simp only [addl, this, wt, hout, List.count_nil, ite_self, Nat.add_zero]
  have htot : total (addl p [i]) D s c i = ctxOf s.udev o + s.queue.count i + c.held.count i + c.refs i + p i + inc s D i + 1 := by
    simp only [total, addl, List.count_singleton_self, ctx, hi]
    omega
  by_cases h3 : o.refs = 1
  · let o1 : Obj := { o with refs := 0, alive := true }
    have hs1 : (put s i { o with refs := o.refs - 1 }) = put s i o1 := by simp [o1, h3, ha]
    have hget : (put s i o1).heap[i]? = some o1 := put_get_self hi
    have hunl : unlink (put s i o1) i = .ok () := by
      simp only [unlink, fetch_ok hget rfl, Bind.bind, Except.bind]
      cases hhm : o1.home with
      | none => rfl
      | some x =>
        obtain ⟨ox, hx1, hx2⟩ := hh x hhm
        have : ∃ ox', (put s i o1).heap[x]? = some ox' ∧ ox'.alive = true := by
          by_cases e : i = x
          · subst e
            exact ⟨o1, hget, rfl⟩
          · exact ⟨ox, by rw [put_get_ne e]; exact hx1, hx2⟩
        obtain ⟨ox', hx3, hx4⟩ := this
        simp [fetch_ok hx3 hx4]
    have hput : put (put s i o1) i { o1 with alive := false } = put s i { o with refs := o.refs - 1, alive := false } := by
      simp [put, o1, h3]
    refine ⟨put s i { o with refs := o.refs - 1, alive := false }, ?_, ?_, ?_⟩
    · simp only [unrefLeaf, Refs.drop, fetch_ok hi ha, Bind.bind, Except.bind, if_neg hne]
      simp only [h3, beq_self_eq_true, if_true, Nat.sub_self]
      have e1 : ({ o with refs := 0 } : Obj) = o1 := by simp [o1, ha]
      rw [e1, hunl]
      simp only [free, fetch_ok hget rfl, Bind.bind, Except.bind, hput, h3, Nat.sub_self]
    · refine h.update hi (h.wf.put' hi _ _ (fun d hd => absurd hd (hke d))) (fun _ _ => Iff.rfl)
        (fun hd => absurd hd hD) (hoth false) (fun hf => by cases hf) ?_
      intro _
      have : ctxOf s.udev { o with refs := o.refs - 1, alive := false } = ctxOf s.udev o := rfl
      rw [this]
      omega
    · have := Frame.put hi (o.refs - 1) false (fun hf => by cases hf)
      rw [hr] at this
      exact this
  · refine ⟨put s i { o with refs := o.refs - 1, alive := o.alive }, ?_, ?_, ?_⟩
    · have hb : (o.refs == 1) = false := by simp [h3]
      simp only [unrefLeaf, Refs.drop, fetch_ok hi ha, Bind.bind, Except.bind, if_neg hne, hb]
      rfl
    · refine h.update hi (h.wf.put' hi _ _ (fun d hd => absurd hd (hke d))) (fun _ _ => Iff.rfl)
        (fun hd => absurd hd hD) (hoth o.alive) ?_ ?_
      · intro _ _
        have : ctxOf s.udev { o with refs := o.refs - 1 } = ctxOf s.udev o := rfl
        rw [this]
        simp only
        omega
      · intro h4
        rcases h4 with h4 | h4
        · simp only at h4
          rw [ha] at h4
          cases h4
        · exact absurd h4 hD
    · have := Frame.put hi (o.refs - 1) o.alive id
      rw [hr] at this
      exact this

theorem foldLeaf_ok {p : Nat → Nat} {D c} (l : List Nat) : ∀ {s : State}, Inv (addl p l) D s c →
    (∀ i ∈ l, ∃ o, s.heap[i]? = some o ∧ rank o.kind = 0 ∧
      ∀ x, o.home = some x → ∃ ox, s.heap[x]? = some ox ∧ ox.alive = true ∧ 1 ≤ rank ox.kind) →
    ∃ s', l.foldlM unrefLeaf s = .ok s' ∧ Inv p D s' c ∧ Frame 1 s s' := by
  induction l with
  | nil =>
    intro s h _
    exact ⟨s, rfl, h.congr (by intro i; simp [addl]), Frame.refl _ _⟩
  | cons i l ih =>
    intro s h hl
    obtain ⟨o, h1, h2, h3⟩ := hl i (by simp)
    obtain ⟨s1, e1, i1, f1⟩ := unrefLeaf_ok (p := addl p l) (h.congr (by
      intro j
      simp only [addl, List.count_cons, List.count_nil]
      omega)) h1 h2 (fun x hx => by
        obtain ⟨ox, a, b, _⟩ := h3 x hx
        exact ⟨ox, a, b⟩)
    obtain ⟨s2, e2, i2, f2⟩ := ih i1 (by
      intro j hj
      obtain ⟨oj, a1, a2, a3⟩ := hl j (by simp [hj])
      obtain ⟨oj', b1, b2, b3, b4, b5, b6, b7⟩ := f1.objs j oj a1
      refine ⟨oj', b1, b2 ▸ a2, ?_⟩
      intro x hx
      obtain ⟨ox, c1, c2, c3⟩ := a3 x (b4 ▸ hx)
      obtain ⟨ox', d1, d2, d3, d4, d5, d6, d7⟩ := f1.objs x ox c1
      have := d7 c3
      subst this
      exact ⟨ox', d1, c2, c3⟩)
    refine ⟨s2, ?_, i2, f1.trans f2⟩
    simp only [List.foldlM_cons, e1, Bind.bind, Except.bind]
    exact e2

end Libinput.Refs
