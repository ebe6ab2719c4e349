/-
Intrusive doubly linked lists, /repo/src/util-list.c.  A node is a number; `none` is NULL.
-/
namespace Libinput.Lists

/-- All list nodes in memory.  Models: `struct list`, /repo/src/util-list.h:61-64. -/
structure Heap where
  next : Nat → Option Nat
  prev : Nat → Option Nat

/-- `x->next = v`. -/
def Heap.setNext (H : Heap) (x : Nat) (v : Option Nat) : Heap := { H with next := fun y => if y = x then v else H.next y }
/-- `x->prev = v`. -/
def Heap.setPrev (H : Heap) (x : Nat) (v : Option Nat) : Heap := { H with prev := fun y => if y = x then v else H.prev y }

/-- `list_init`.  Models: /repo/src/util-list.c:34-39. -/
def init (H : Heap) (list : Nat) : Heap := (H.setPrev list (some list)).setNext list (some list)

/-- `list_empty`; `none` is a failed assertion.  Models: /repo/src/util-list.c:81-88. -/
def empty (H : Heap) (list : Nat) : Option Bool :=
  match H.next list, H.prev list with
  | some n, some _ => some (n = list)
  | _, _ => none

/-- The two assertions of insert and append; `none` is an abort.  Yields `list->next` and `list->prev`.
Models: /repo/src/util-list.c:44-47 and 58-61. -/
def checks (H : Heap) (list elm : Nat) : Option (Nat × Nat) :=
  match H.next list, H.prev list with
  | some n, some p =>
    if H.next elm = none ∧ H.prev elm = none then some (n, p)
    else if empty H elm = some true then some (n, p) else none
  | _, _ => none

/-- `list_insert`.  Models: /repo/src/util-list.c:41-53. -/
def insert (H : Heap) (list elm : Nat) : Option Heap :=
  match checks H list elm with
  | none => none
  | some _ =>
    let H := H.setPrev elm (some list)
    let H := H.setNext elm (H.next list)
    let H := H.setNext list (some elm)
    match H.next elm with
    | some n => some (H.setPrev n (some elm))
    | none => none

/-- `list_append`.  Models: /repo/src/util-list.c:55-67. -/
def append (H : Heap) (list elm : Nat) : Option Heap :=
  match checks H list elm with
  | none => none
  | some _ =>
    let H := H.setNext elm (some list)
    let H := H.setPrev elm (H.prev list)
    let H := H.setPrev list (some elm)
    match H.prev elm with
    | some p => some (H.setNext p (some elm))
    | none => none

/-- `list_remove`.  Models: /repo/src/util-list.c:69-79. -/
def remove (H : Heap) (elm : Nat) : Option Heap :=
  match H.next elm, H.prev elm with
  | some _, some p =>
    let H := H.setNext p (H.next elm)
    match H.next elm with
    | some n =>
      let H := H.setPrev n (H.prev elm)
      some ((H.setNext elm none).setPrev elm none)
    | none => none
  | _, _ => none

/-- `list_for_each`: the nodes visited from `pos` until the head comes round; `none` when `fuel` runs out or on a NULL
pointer.  Models: /repo/src/util-list.h:174-177. -/
def walk (H : Heap) (head : Nat) : Nat → Nat → Option (List Nat)
  | 0, _ => none
  | fuel + 1, pos =>
    if pos = head then some []
    else
      match H.next pos with
      | none => none
      | some n => (walk H head fuel n).map (pos :: ·)

/-- `list_for_each_safe` with a body that removes the elements for which `keep` is false: the successor is read before the body
runs.  Models: /repo/src/util-list.h:192-196. -/
def sweep (keep : Nat → Bool) (head : Nat) : Nat → Heap → Nat → Option Heap
  | 0, _, _ => none
  | fuel + 1, H, pos =>
    if pos = head then some H
    else
      match H.next pos, (if keep pos then some H else remove H pos) with
      | some tmp, some H' => sweep keep head fuel H' tmp
      | _, _ => none

/-! ### Specification -/

/-- The lists there are: the elements for each head. -/
abbrev Abs := Nat → Option (List Nat)

def Abs.set (A : Abs) (h : Nat) (l : Option (List Nat)) : Abs := fun x => if x = h then l else A x

/-- `x` is an element of a list. -/
def Element (A : Abs) (x : Nat) : Prop := ∃ h l, A h = some l ∧ x ∈ l
/-- `x` is neither head nor element. -/
def Detached (A : Abs) (x : Nat) : Prop := A x = none ∧ ¬ Element A x
/-- `x` is in use: an element or the head of a list that has elements. -/
def InUse (A : Abs) (x : Nat) : Prop := Element A x ∨ ∃ y l, A x = some (y :: l)

inductive Op where
  | init (h : Nat)
  | insert (h e : Nat)
  | append (h e : Nat)
  | remove (e : Nat)

/-- What each operation should do; `none` is an abort. -/
inductive Step (A : Abs) : Op → Option Abs → Prop
  | init (h : Nat) (hd : Detached A h ∨ A h = some []) : Step A (.init h) (some (A.set h (some [])))
  | insert (h e : Nat) (l : List Nat) (hh : A h = some l) (he : Detached A e) :
      Step A (.insert h e) (some (A.set h (some (e :: l))))
  | insertInit (h e : Nat) (l : List Nat) (hh : A h = some l) (hne : h ≠ e) (he : A e = some []) :
      Step A (.insert h e) (some ((A.set e none).set h (some (e :: l))))
  | insertTwice (h e : Nat) (he : InUse A e) : Step A (.insert h e) none
  | insertNoList (h e : Nat) (hh : Detached A h) : Step A (.insert h e) none
  | append (h e : Nat) (l : List Nat) (hh : A h = some l) (he : Detached A e) :
      Step A (.append h e) (some (A.set h (some (l ++ [e]))))
  | appendInit (h e : Nat) (l : List Nat) (hh : A h = some l) (hne : h ≠ e) (he : A e = some []) :
      Step A (.append h e) (some ((A.set e none).set h (some (l ++ [e]))))
  | appendTwice (h e : Nat) (he : InUse A e) : Step A (.append h e) none
  | appendNoList (h e : Nat) (hh : Detached A h) : Step A (.append h e) none
  | remove (h e : Nat) (a b : List Nat) (hh : A h = some (a ++ e :: b)) :
      Step A (.remove e) (some (A.set h (some (a ++ b))))
  | removeInit (e : Nat) (he : A e = some []) : Step A (.remove e) (some (A.set e none))
  | removeTwice (e : Nat) (he : Detached A e) : Step A (.remove e) none

/-- The code's operation. -/
def exec (H : Heap) : Op → Option Heap
  | .init h => some (init H h)
  | .insert h e => insert H h e
  | .append h e => append H h e
  | .remove e => remove H e

/-! ### Representation -/

/-- Consecutive nodes are linked both ways. -/
def Linked (H : Heap) : List Nat → Prop
  | a :: b :: t => H.next a = some b ∧ H.prev b = some a ∧ Linked H (b :: t)
  | _ => True

structure Rep (H : Heap) (A : Abs) : Prop where
  linked : ∀ h l, A h = some l → Linked H (h :: l ++ [h])
  nodup : ∀ h l, A h = some l → (h :: l).Nodup
  disj : ∀ h l h' l', A h = some l → A h' = some l' → h ≠ h' → ∀ x ∈ h :: l, x ∉ h' :: l'
  free : ∀ x, (∀ h l, A h = some l → x ∉ h :: l) → H.next x = none ∧ H.prev x = none

theorem linked_frame {H H' : Heap} : ∀ L : List Nat, (∀ x ∈ L.dropLast, H'.next x = H.next x) →
    (∀ x ∈ L.tail, H'.prev x = H.prev x) → Linked H L → Linked H' L := by
  intro L
  induction L with
  | nil => intros; trivial
  | cons a L ih =>
    cases L with
    | nil => intros; trivial
    | cons b t =>
      intro h1 h2 h
      refine ⟨?_, ?_, ?_⟩
      · rw [h1 a (by simp)]; exact h.1
      · rw [h2 b (by simp)]; exact h.2.1
      · refine ih ?_ ?_ h.2.2
        · intro x hx; exact h1 x (by simp only [List.dropLast_cons_cons, List.mem_cons]; exact Or.inr hx)
        · intro x hx; exact h2 x (by simp only [List.tail_cons] at hx ⊢; simp [hx])

theorem linked_split {H : Heap} : ∀ (X : List Nat) (p q : Nat) (Y : List Nat),
    Linked H (X ++ p :: q :: Y) ↔ Linked H (X ++ [p]) ∧ H.next p = some q ∧ H.prev q = some p ∧ Linked H (q :: Y) := by
  intro X
  induction X with
  | nil => intro p q Y; simp [Linked]
  | cons a X ih =>
    intro p q Y
    cases X with
    | nil => simp only [List.cons_append, List.nil_append, Linked]; simp only [and_true, and_assoc]
    | cons b X =>
      simp only [List.cons_append, Linked]
      rw [← List.cons_append, ih, ← List.cons_append]
      simp only [and_assoc]

/-- The ring of a list as first link and rest. -/
theorem ring_front (h : Nat) (l : List Nat) : ∃ y t, h :: l ++ [h] = h :: y :: t ∧ (y :: t) = l ++ [h] := by
  cases l with
  | nil => exact ⟨h, [], rfl, rfl⟩
  | cons a l => exact ⟨a, l ++ [h], rfl, rfl⟩

theorem ring_back (h : Nat) (l : List Nat) : ∃ X p, h :: l = X ++ [p] := by
  induction l generalizing h with
  | nil => exact ⟨[], h, rfl⟩
  | cons a l ih =>
    obtain ⟨X, p, e⟩ := ih a
    exact ⟨h :: X, p, by rw [e]; rfl⟩

/-- Changing one ring (and nodes in no ring): `S` is the set of nodes changed, `r` the ring that is there afterwards, if any. -/
theorem rep_local {H H' : Heap} {A B : Abs} (R : Rep H A) (S : Nat → Prop) (r : Option (Nat × List Nat))
    (hH : ∀ x, ¬ S x → H'.next x = H.next x ∧ H'.prev x = H.prev x)
    (hA : ∀ k m, A k = some m → (∃ x ∈ k :: m, S x) → ∀ x ∈ k :: m, S x)
    (hB : ∀ k, ¬ S k → B k = A k)
    (hS : ∀ k m, S k → B k = some m → r = some (k, m))
    (hr : ∀ k m, r = some (k, m) → Linked H' (k :: m ++ [k]) ∧ (k :: m).Nodup ∧ ∀ x ∈ k :: m, S x)
    (hf : ∀ x, S x → (∀ k m, B k = some m → x ∉ k :: m) → H'.next x = none ∧ H'.prev x = none) : Rep H' B := by
  have out : ∀ k m, B k = some m → ¬ S k → A k = some m ∧ ∀ x ∈ k :: m, ¬ S x := by
    intro k m hb hk
    rw [hB k hk] at hb
    refine ⟨hb, ?_⟩
    intro x hx hs
    exact hk (hA k m hb ⟨x, hx, hs⟩ k (by simp))
  have inn : ∀ k m, B k = some m → S k → r = some (k, m) ∧ ∀ x ∈ k :: m, S x := by
    intro k m hb hk
    have e := hS k m hk hb
    exact ⟨e, (hr k m e).2.2⟩
  refine ⟨?_, ?_, ?_, ?_⟩
  · intro k m hb
    by_cases hk : S k
    · exact (hr k m (hS k m hk hb)).1
    · obtain ⟨ha, hn⟩ := out k m hb hk
      apply linked_frame _ ?_ ?_ (R.linked k m ha)
      · intro x hx
        have hx' : x ∈ k :: m := by
          rw [List.dropLast_concat] at hx; exact hx
        exact (hH x (hn x hx')).1
      · intro x hx
        have hx' : x ∈ k :: m := by
          simp only [List.cons_append, List.tail_cons, List.mem_append, List.mem_singleton] at hx
          rcases hx with h | h <;> simp [h]
        exact (hH x (hn x hx')).2
  · intro k m hb
    by_cases hk : S k
    · exact (hr k m (hS k m hk hb)).2.1
    · exact R.nodup k m (out k m hb hk).1
  · intro k m k' m' hb hb' hne x hx hx'
    by_cases hk : S k
    · by_cases hk' : S k'
      · have e1 := (inn k m hb hk).1
        have e2 := (inn k' m' hb' hk').1
        rw [e1] at e2
        simp only [Option.some.injEq, Prod.mk.injEq] at e2
        exact hne e2.1
      · exact (out k' m' hb' hk').2 x hx' ((inn k m hb hk).2 x hx)
    · by_cases hk' : S k'
      · exact (out k m hb hk).2 x hx ((inn k' m' hb' hk').2 x hx')
      · exact R.disj k m k' m' (out k m hb hk).1 (out k' m' hb' hk').1 hne x hx hx'
  · intro x hx
    by_cases hs : S x
    · exact hf x hs hx
    · rw [(hH x hs).1, (hH x hs).2]
      apply R.free
      intro k m ha hxm
      by_cases hk : S k
      · exact hs (hA k m ha ⟨k, by simp, hk⟩ x hxm)
      · exact hx k m (by rw [hB k hk]; exact ha) hxm

theorem Rep.unique {H : Heap} {A : Abs} (R : Rep H A) {h k : Nat} {l m : List Nat} (hh : A h = some l) (hk : A k = some m)
    {x : Nat} (h1 : x ∈ h :: l) (h2 : x ∈ k :: m) : h = k ∧ l = m := by
  by_cases e : h = k
  · subst e; rw [hh] at hk; exact ⟨rfl, by simpa using hk⟩
  · exact absurd h2 (R.disj h l k m hh hk e x h1)

theorem rep_ends {H : Heap} {A : Abs} (R : Rep H A) {h : Nat} {l : List Nat} (hh : A h = some l) :
    ∃ y p, H.next h = some y ∧ H.prev h = some p ∧ (∃ t, l ++ [h] = y :: t) ∧ (∃ X, h :: l = X ++ [p]) := by
  obtain ⟨y, t, e1, e2⟩ := ring_front h l
  obtain ⟨X, p, e3⟩ := ring_back h l
  have L := R.linked h l hh
  have e4 : h :: l ++ [h] = X ++ [p, h] := by rw [e3]; simp
  have L1 := L
  rw [e1] at L1
  rw [e4] at L
  have := (linked_split X p h []).mp L
  exact ⟨y, p, L1.1, this.2.2.1, ⟨t, e2.symm⟩, ⟨X, e3⟩⟩

/-- Elements have neighbours, which are other nodes. -/
theorem rep_element {H : Heap} {A : Abs} (R : Rep H A) {h x : Nat} {a b : List Nat} (hh : A h = some (a ++ x :: b)) :
    ∃ n q X Y, H.next x = some n ∧ H.prev x = some q ∧ h :: a = X ++ [q] ∧ b ++ [h] = n :: Y ∧ n ≠ x ∧ q ≠ x := by
  have L := R.linked h _ hh
  have N := R.nodup h _ hh
  obtain ⟨X, q, e3⟩ := ring_back h a
  obtain ⟨n, Y, _, e2⟩ := ring_front h b
  have e4 : h :: (a ++ x :: b) ++ [h] = X ++ q :: x :: n :: Y := by
    rw [e2]
    have : h :: (a ++ x :: b) ++ [h] = (h :: a) ++ x :: (b ++ [h]) := by simp
    rw [this, e3]; simp
  rw [e4] at L
  obtain ⟨_, _, l3, l4⟩ := (linked_split X q x (n :: Y)).mp L
  have hn : n ∈ b ++ [h] := by rw [← e2]; simp
  have hq : q ∈ h :: a := by rw [e3]; simp
  simp only [List.nodup_cons, List.mem_append, List.mem_cons, List.nodup_append] at N
  refine ⟨n, q, X, Y, l4.1, l3, e3, e2.symm, ?_, ?_⟩
  · rintro rfl
    simp only [List.mem_append, List.mem_singleton] at hn
    rcases hn with h1 | h1
    · exact N.2.2.1.1 h1
    · exact N.1 (Or.inr (Or.inl h1.symm))
  · rintro rfl
    rcases List.mem_cons.mp hq with h1 | h1
    · exact N.1 (Or.inr (Or.inl h1.symm))
    · exact N.2.2.2 q h1 q (Or.inl rfl) rfl

/-- The checks of insert and append for every kind of argument. -/
theorem checks_ok {H : Heap} {A : Abs} (R : Rep H A) {h e : Nat} {l : List Nat} (hh : A h = some l)
    (he : Detached A e ∨ A e = some []) : (checks H h e).isSome = true := by
  obtain ⟨y, p, h1, h2, _⟩ := rep_ends R hh
  unfold checks
  rw [h1, h2]
  simp only
  rcases he with he | he
  · have := R.free e (by
      intro k m hk hm
      rcases List.mem_cons.mp hm with rfl | hm
      · rw [he.1] at hk; cases hk
      · exact he.2 ⟨k, m, hk, hm⟩)
    rw [if_pos this]; rfl
  · have L := R.linked e [] he
    simp only [List.cons_append, List.nil_append, Linked, and_true] at L
    split
    · rfl
    · have : empty H e = some true := by
        unfold empty; rw [L.1, L.2]; simp
      rw [if_pos this]; rfl

theorem checks_fail {H : Heap} {A : Abs} (R : Rep H A) {h e : Nat} (hb : Detached A h ∨ InUse A e) : checks H h e = none := by
  unfold checks
  rcases hb with hb | hb
  · have := R.free h (by
      intro k m hk hm
      rcases List.mem_cons.mp hm with rfl | hm
      · rw [hb.1] at hk; cases hk
      · exact hb.2 ⟨k, m, hk, hm⟩)
    rw [this.1, this.2]
  · have key : ∃ n p, H.next e = some n ∧ H.prev e = some p ∧ n ≠ e := by
      rcases hb with ⟨k, m, hk, hm⟩ | ⟨y, m, hk⟩
      · obtain ⟨a, b, rfl⟩ := List.append_of_mem hm
        obtain ⟨n, q, _, _, h1, h2, _, _, h3, _⟩ := rep_element R hk
        exact ⟨n, q, h1, h2, h3⟩
      · obtain ⟨n, p, h1, h2, ⟨t, h3⟩, _⟩ := rep_ends R hk
        refine ⟨n, p, h1, h2, ?_⟩
        have N := R.nodup e _ hk
        simp only [List.cons_append, List.cons.injEq] at h3
        rintro rfl
        rw [h3.1] at N
        simp at N
    obtain ⟨n, p, h1, h2, h3⟩ := key
    cases H.next h with
    | none => rfl
    | some n' =>
      cases H.prev h with
      | none => rfl
      | some p' =>
        simp only
        rw [if_neg (by simp [h1])]
        have : empty H e = some false := by unfold empty; rw [h1, h2]; simp [h3]
        rw [this]; rfl

theorem set_none_self {A : Abs} {e : Nat} (h : A e = none) : A.set e none = A := by
  funext x; unfold Abs.set; split
  · rename_i h'; rw [h', h]
  · rfl

/-- Splicing `e` into the ring of `h` at one place, giving `l'`. -/
theorem rep_splice {H H' : Heap} {A : Abs} (R : Rep H A) {h e : Nat} {l l' : List Nat} (hh : A h = some l) (hne : h ≠ e)
    (he : Detached A e ∨ A e = some [])
    (hH : ∀ x, x ≠ e → x ∉ h :: l → H'.next x = H.next x ∧ H'.prev x = H.prev x)
    (hl' : ∀ x, x ∈ l' ↔ x = e ∨ x ∈ l) (hnd : l'.Nodup) (hL : Linked H' (h :: l' ++ [h])) :
    Rep H' ((A.set e none).set h (some l')) := by
  have hel : ∀ k m, A k = some m → e ∉ m := by
    intro k m hk hm
    rcases he with he | he
    · exact he.2 ⟨k, m, hk, hm⟩
    · have := R.unique hk he (x := e) (by simp [hm]) (by simp)
      rw [this.2] at hm; simp at hm
  have N := R.nodup h l hh
  apply rep_local R (fun x => x = e ∨ x ∈ h :: l) (some (h, l'))
  · intro x hx
    simp only [not_or] at hx
    exact hH x hx.1 hx.2
  · rintro k m hk ⟨x, hx, hs⟩ z hz
    rcases hs with rfl | hs
    · rcases List.mem_cons.mp hx with rfl | hx
      · rcases he with he | he
        · rw [he.1] at hk; cases hk
        · rw [he] at hk; cases hk; simp at hz; exact Or.inl hz
      · exact absurd hx (hel k m hk)
    · obtain ⟨rfl, rfl⟩ := R.unique hk hh hx hs
      exact Or.inr hz
  · intro k hk
    simp only [List.mem_cons, not_or] at hk
    unfold Abs.set
    rw [if_neg hk.2.1, if_neg hk.1]
  · intro k m hk hb
    unfold Abs.set at hb
    by_cases h1 : k = h
    · rw [if_pos h1] at hb; cases hb; rw [h1]
    · rw [if_neg h1] at hb
      by_cases h2 : k = e
      · rw [if_pos h2] at hb; cases hb
      · rw [if_neg h2] at hb
        have hkl : k ∈ l := by
          rcases hk with hk | hk
          · exact absurd hk h2
          · rcases List.mem_cons.mp hk with hk | hk
            · exact absurd hk h1
            · exact hk
        have := R.unique hb hh (x := k) (by simp) (by simp [hkl])
        exact absurd this.1 h1
  · rintro k m ⟨⟩
    refine ⟨hL, ?_, ?_⟩
    · rw [List.nodup_cons]
      refine ⟨?_, hnd⟩
      intro hm
      rcases (hl' h).mp hm with h1 | h1
      · exact hne h1
      · exact (List.nodup_cons.mp N).1 h1
    · intro x hx
      rcases List.mem_cons.mp hx with h1 | h1
      · exact Or.inr (by simp [h1])
      · rcases (hl' x).mp h1 with h2 | h2
        · exact Or.inl h2
        · exact Or.inr (by simp [h2])
  · intro x hx hno
    exfalso
    have hb : ((A.set e none).set h (some l')) h = some l' := by simp [Abs.set]
    have := hno h l' hb
    simp only [List.mem_cons, not_or] at this
    rcases hx with h1 | h1
    · exact this.2 ((hl' x).mpr (Or.inl h1))
    · rcases List.mem_cons.mp h1 with h2 | h2
      · exact this.1 h2
      · exact this.2 ((hl' x).mpr (Or.inr h2))

theorem not_in_ring {H : Heap} {A : Abs} (R : Rep H A) {h e : Nat} {l : List Nat} (hh : A h = some l) (hne : h ≠ e)
    (he : Detached A e ∨ A e = some []) : e ∉ h :: l := by
  intro hm
  rcases he with he | he
  · rcases List.mem_cons.mp hm with h1 | h1
    · exact hne h1.symm
    · exact he.2 ⟨h, l, hh, h1⟩
  · have := R.unique hh he hm (by simp)
    exact hne this.1

theorem insert_rep {H : Heap} {A : Abs} (R : Rep H A) {h e : Nat} {l : List Nat} (hh : A h = some l) (hne : h ≠ e)
    (he : Detached A e ∨ A e = some []) :
    ∃ H', insert H h e = some H' ∧ Rep H' ((A.set e none).set h (some (e :: l))) := by
  have hc := checks_ok R hh he
  have hni := not_in_ring R hh hne he
  obtain ⟨y, p, h1, h2, ⟨t, h3⟩, _⟩ := rep_ends R hh
  have N := R.nodup h l hh
  have L := R.linked h l hh
  rw [show h :: l ++ [h] = h :: y :: t by rw [← h3]; rfl] at L
  have hne' : e ≠ h := fun e => hne e.symm
  obtain ⟨c, hc'⟩ := Option.isSome_iff_exists.mp hc
  have hey : y ≠ e := by
    rintro rfl
    have : y ∈ l ++ [h] := by rw [h3]; simp
    simp only [List.mem_append, List.mem_singleton] at this
    rcases this with h | h <;> exact hni (by simp [h])
  unfold insert
  rw [hc']
  simp only [Heap.setPrev, Heap.setNext, if_pos, if_neg hne', if_neg hne, h1]
  refine ⟨_, rfl, ?_⟩
  apply rep_splice R hh hne he
  · intro x hxe hxl
    have hxh : x ≠ h := fun e => hxl (by simp [e])
    have hxy : x ≠ y := by
      rintro rfl
      have : x ∈ l ++ [h] := by rw [h3]; simp
      simp only [List.mem_append, List.mem_singleton] at this
      rcases this with h | h <;> exact hxl (by simp [h])
    simp only [if_neg hxe, if_neg hxh, if_neg hxy, and_self]
  · intro x; simp
  · rw [List.nodup_cons]
    exact ⟨fun h => hni (by simp [h]), (List.nodup_cons.mp N).2⟩
  · rw [show h :: (e :: l) ++ [h] = h :: e :: y :: t by simp [h3]]
    refine ⟨by simp [hne], by simp [hey.symm], by simp [hne'], by simp, ?_⟩
    apply linked_frame _ ?_ ?_ L.2.2
    · intro x hx
      have : x ∈ l := by
        rw [← h3, List.dropLast_concat] at hx; exact hx
      have hxh : x ≠ h := by rintro rfl; exact (List.nodup_cons.mp N).1 this
      have hxe : x ≠ e := by rintro rfl; exact hni (by simp [this])
      simp only [if_neg hxh, if_neg hxe]
    · intro x hx
      simp only [List.tail_cons] at hx
      have hx2 : x ∈ l ++ [h] := by rw [h3]; simp [hx]
      have hxe : x ≠ e := by
        rintro rfl
        simp only [List.mem_append, List.mem_singleton] at hx2
        rcases hx2 with h | h <;> exact hni (by simp [h])
      have hxy : x ≠ y := by
        rintro rfl
        have N' : (l ++ [h]).Nodup := by
          rw [List.nodup_append]
          refine ⟨(List.nodup_cons.mp N).2, by simp, ?_⟩
          intro a ha b hb
          simp only [List.mem_singleton] at hb
          subst hb; rintro rfl; exact (List.nodup_cons.mp N).1 ha
        rw [h3] at N'
        exact (List.nodup_cons.mp N').1 hx
      simp only [if_neg hxe, if_neg hxy]

theorem append_rep {H : Heap} {A : Abs} (R : Rep H A) {h e : Nat} {l : List Nat} (hh : A h = some l) (hne : h ≠ e)
    (he : Detached A e ∨ A e = some []) :
    ∃ H', append H h e = some H' ∧ Rep H' ((A.set e none).set h (some (l ++ [e]))) := by
  have hc := checks_ok R hh he
  have hni := not_in_ring R hh hne he
  obtain ⟨y, p, h1, h2, _, ⟨X, h3⟩⟩ := rep_ends R hh
  have N := R.nodup h l hh
  have L := R.linked h l hh
  have e4 : h :: l ++ [h] = X ++ p :: h :: [] := by rw [h3]; simp
  rw [e4] at L
  obtain ⟨l1, l2, l3, _⟩ := (linked_split X p h []).mp L
  have hne' : e ≠ h := fun e => hne e.symm
  obtain ⟨c, hc'⟩ := Option.isSome_iff_exists.mp hc
  have hp : p ∈ h :: l := by rw [h3]; simp
  have hep : p ≠ e := by rintro rfl; exact hni hp
  unfold append
  rw [hc']
  simp only [Heap.setPrev, Heap.setNext, if_pos, if_neg hne', if_neg hne, h2]
  refine ⟨_, rfl, ?_⟩
  apply rep_splice R hh hne he
  · intro x hxe hxl
    have hxh : x ≠ h := fun e => hxl (by simp [e])
    have hxp : x ≠ p := by rintro rfl; exact hxl hp
    simp only [if_neg hxe, if_neg hxh, if_neg hxp, and_self]
  · intro x; simp [or_comm]
  · rw [List.nodup_append]
    refine ⟨(List.nodup_cons.mp N).2, by simp, ?_⟩
    intro a ha b hb
    simp only [List.mem_singleton] at hb
    subst hb; rintro rfl; exact hni (by simp [ha])
  · rw [show h :: (l ++ [e]) ++ [h] = X ++ p :: e :: [h] by
      have : h :: (l ++ [e]) ++ [h] = (h :: l) ++ [e, h] := by simp
      rw [this, h3]; simp]
    rw [linked_split]
    refine ⟨?_, by simp, by simp [hne'], by simp [hep.symm], by simp, trivial⟩
    apply linked_frame _ ?_ ?_ l1
    · intro x hx
      rw [List.dropLast_concat] at hx
      rw [h3, List.nodup_append] at N
      have hxp : x ≠ p := N.2.2 x hx p (by simp)
      have hxe : x ≠ e := by rintro rfl; exact hni (by rw [h3]; simp [hx])
      simp only [if_neg hxp, if_neg hxe]
    · intro x hx
      rw [← h3] at hx
      simp only [List.tail_cons] at hx
      have hxh : x ≠ h := by rintro rfl; exact (List.nodup_cons.mp N).1 hx
      have hxe : x ≠ e := by rintro rfl; exact hni (by simp [hx])
      simp only [if_neg hxh, if_neg hxe]

theorem remove_rep {H : Heap} {A : Abs} (R : Rep H A) {h e : Nat} {a b : List Nat} (hh : A h = some (a ++ e :: b)) :
    ∃ H', remove H e = some H' ∧ Rep H' (A.set h (some (a ++ b))) := by
  obtain ⟨n, q, X, Y, h1, h2, h3, h4, hn, hq⟩ := rep_element R hh
  have N := R.nodup h _ hh
  have L := R.linked h _ hh
  have e4 : h :: (a ++ e :: b) ++ [h] = X ++ q :: e :: n :: Y := by
    have : h :: (a ++ e :: b) ++ [h] = (h :: a) ++ e :: (b ++ [h]) := by simp
    rw [this, h3, h4]; simp
  rw [e4] at L
  obtain ⟨l1, _, _, l4⟩ := (linked_split X q e (n :: Y)).mp L
  have hqm : q ∈ h :: a := by rw [h3]; simp
  have hnm : n ∈ b ++ [h] := by rw [h4]; simp
  have hqr : q ∈ h :: (a ++ e :: b) := by
    rcases List.mem_cons.mp hqm with h | h <;> simp [h]
  have hnr : n ∈ h :: (a ++ e :: b) := by
    simp only [List.mem_append, List.mem_singleton] at hnm
    rcases hnm with h | h <;> simp [h]
  simp only [List.nodup_cons, List.mem_append, List.mem_cons, List.nodup_append, not_or] at N
  obtain ⟨⟨n1, n2, n3⟩, n4, ⟨n5, n6⟩, n7⟩ := N
  have heq : e ≠ q := fun x => hq x.symm
  unfold remove
  rw [h1, h2]
  simp only [Heap.setNext, Heap.setPrev, if_neg heq, h1]
  refine ⟨_, rfl, ?_⟩
  apply rep_local R (fun x => x ∈ h :: (a ++ e :: b)) (some (h, a ++ b))
  · intro x hx
    have e1 : x ≠ e := fun h => hx (by simp [h])
    have e2 : x ≠ q := fun h => hx (by rw [h]; exact hqr)
    have e3 : x ≠ n := fun h => hx (by rw [h]; exact hnr)
    simp only [if_neg e1, if_neg e2, if_neg e3, and_self]
  · rintro k m hk ⟨x, hx, hs⟩ z hz
    obtain ⟨rfl, rfl⟩ := R.unique hk hh hx hs
    exact hz
  · intro k hk
    unfold Abs.set
    rw [if_neg (fun h => hk (by simp [h]))]
  · intro k m hk hb
    unfold Abs.set at hb
    by_cases hkh : k = h
    · rw [if_pos hkh] at hb; cases hb; rw [hkh]
    · rw [if_neg hkh] at hb
      have := R.unique hb hh (x := k) (by simp) hk
      exact absurd this.1 hkh
  · rintro k m ⟨⟩
    refine ⟨?_, ?_, ?_⟩
    · rw [show h :: (a ++ b) ++ [h] = X ++ q :: n :: Y by
        have : h :: (a ++ b) ++ [h] = (h :: a) ++ (b ++ [h]) := by simp
        rw [this, h3, h4]; simp]
      rw [linked_split]
      refine ⟨?_, by simp only [if_neg hq, if_true], by simp only [if_neg hn, if_true, h2], ?_⟩
      · apply linked_frame _ ?_ ?_ l1
        · intro x hx
          rw [List.dropLast_concat] at hx
          have hxa : x ∈ h :: a := by rw [h3]; simp [hx]
          have N' : (X ++ [q]).Nodup := by rw [← h3, List.nodup_cons]; exact ⟨n1, n4⟩
          rw [List.nodup_append] at N'
          have hxq : x ≠ q := N'.2.2 x hx q (by simp)
          have hxe : x ≠ e := by
            rintro rfl
            rcases List.mem_cons.mp hxa with h | h
            · exact n2 h.symm
            · exact n7 x h x (Or.inl rfl) rfl
          simp only [if_neg hxe, if_neg hxq]
        · intro x hx
          rw [← h3] at hx
          simp only [List.tail_cons] at hx
          have hxe : x ≠ e := n7 x hx e (Or.inl rfl)
          have hxn : x ≠ n := by
            rintro rfl
            simp only [List.mem_append, List.mem_singleton] at hnm
            rcases hnm with h | h
            · exact n7 x hx x (Or.inr h) rfl
            · rw [h] at hx; exact n1 hx
          simp only [if_neg hxe, if_neg hxn]
      · apply linked_frame _ ?_ ?_ l4.2.2
        · intro x hx
          rw [← h4, List.dropLast_concat] at hx
          have hxe : x ≠ e := by rintro rfl; exact n5 hx
          have hxq : x ≠ q := by
            rintro rfl
            rcases List.mem_cons.mp hqm with h | h
            · rw [h] at hx; exact n3 hx
            · exact n7 x h x (Or.inr hx) rfl
          simp only [if_neg hxe, if_neg hxq]
        · intro x hx
          simp only [List.tail_cons] at hx
          have hxb : x ∈ b ++ [h] := by rw [h4]; simp [hx]
          have N' : (b ++ [h]).Nodup := by
            rw [List.nodup_append]
            refine ⟨n6, by simp, ?_⟩
            intro u hu v hv
            simp only [List.mem_singleton] at hv
            subst hv; rintro rfl; exact n3 hu
          rw [h4] at N'
          have hxn : x ≠ n := by rintro rfl; exact (List.nodup_cons.mp N').1 hx
          have hxe : x ≠ e := by
            rintro rfl
            simp only [List.mem_append, List.mem_singleton] at hxb
            rcases hxb with h | h
            · exact n5 h
            · exact n2 h.symm
          simp only [if_neg hxe, if_neg hxn]
    · rw [List.nodup_cons, List.nodup_append]
      refine ⟨by simp only [List.mem_append, not_or]; exact ⟨n1, n3⟩, n4, n6, ?_⟩
      intro u hu v hv
      exact n7 u hu v (Or.inr hv)
    · intro x hx
      simp only [List.mem_cons, List.mem_append] at hx ⊢
      rcases hx with h | h | h <;> simp [h]
  · intro x hx hno
    have hb : (A.set h (some (a ++ b))) h = some (a ++ b) := by simp [Abs.set]
    have := hno h _ hb
    simp only [List.mem_cons, List.mem_append, not_or] at this hx
    have hxe : x = e := by
      rcases hx with h | h | h | h
      · exact absurd h this.1
      · exact absurd h this.2.1
      · exact h
      · exact absurd h this.2.2
    simp only [if_pos hxe, and_self]

theorem detached_free {H : Heap} {A : Abs} (R : Rep H A) {x : Nat} (hx : Detached A x) : H.next x = none ∧ H.prev x = none := by
  apply R.free
  intro k m hk hm
  rcases List.mem_cons.mp hm with rfl | hm
  · rw [hx.1] at hk; cases hk
  · exact hx.2 ⟨k, m, hk, hm⟩

/-- Changing a node that is no element. -/
theorem rep_single {H H' : Heap} {A : Abs} (R : Rep H A) {h : Nat} (hd : Detached A h ∨ A h = some []) (v : Option (List Nat))
    (hH : ∀ x, x ≠ h → H'.next x = H.next x ∧ H'.prev x = H.prev x)
    (hv : v = some [] ∧ H'.next h = some h ∧ H'.prev h = some h ∨ v = none ∧ H'.next h = none ∧ H'.prev h = none) :
    Rep H' (A.set h v) := by
  have hel : ∀ k m, A k = some m → h ∉ m := by
    intro k m hk hm
    rcases hd with hd | hd
    · exact hd.2 ⟨k, m, hk, hm⟩
    · have := R.unique hk hd (x := h) (by simp [hm]) (by simp)
      rw [this.2] at hm; simp at hm
  apply rep_local R (fun x => x = h) (v.map (fun l => (h, l)))
  · exact fun x hx => hH x hx
  · rintro k m hk ⟨x, hx, rfl⟩ z hz
    rcases List.mem_cons.mp hx with rfl | hx
    · rcases hd with hd | hd
      · rw [hd.1] at hk; cases hk
      · rw [hd] at hk; cases hk; simpa using hz
    · exact absurd hx (hel k m hk)
  · intro k hk; unfold Abs.set; rw [if_neg hk]
  · rintro k m rfl hb
    have : v = some m := by simpa [Abs.set] using hb
    rw [this]; rfl
  · intro k m hr
    rcases hv with ⟨rfl, h1, h2⟩ | ⟨rfl, _⟩
    · simp only [Option.map_some, Option.some.injEq, Prod.mk.injEq] at hr
      obtain ⟨rfl, rfl⟩ := hr
      exact ⟨⟨h1, h2, trivial⟩, by simp, by simp⟩
    · cases hr
  · rintro x rfl hno
    rcases hv with ⟨rfl, h1, h2⟩ | ⟨_, h1, h2⟩
    · exact absurd (List.mem_cons_self) (hno x [] (by simp [Abs.set]))
    · exact ⟨h1, h2⟩

/-- **C28.**  Every operation on intrusive lists does to memory what the operation on sequences says: if memory represents the
lists `A` and the operation is specified to give `A'`, the code runs through and memory represents `A'` (so all other lists are
as before); where the specification says the operation is a misuse, the code aborts. -/
theorem lists_refine (H : Heap) (A : Abs) (R : Rep H A) (op : Op) :
    (∀ A', Step A op (some A') → ∃ H', exec H op = some H' ∧ Rep H' A') ∧ (Step A op none → exec H op = none) := by
  constructor
  · intro A' hs
    cases hs with
    | init h hd =>
      refine ⟨_, rfl, rep_single R hd _ ?_ (Or.inl ⟨rfl, by simp [init, Heap.setNext, Heap.setPrev], by simp [init, Heap.setNext, Heap.setPrev]⟩)⟩
      intro x hx; simp [init, Heap.setNext, Heap.setPrev, hx]
    | insert h e l hh he =>
      have := insert_rep R hh (by rintro rfl; rw [he.1] at hh; cases hh) (Or.inl he)
      rwa [set_none_self he.1] at this
    | insertInit h e l hh hne he => exact insert_rep R hh hne (Or.inr he)
    | append h e l hh he =>
      have := append_rep R hh (by rintro rfl; rw [he.1] at hh; cases hh) (Or.inl he)
      rwa [set_none_self he.1] at this
    | appendInit h e l hh hne he => exact append_rep R hh hne (Or.inr he)
    | remove h e a b hh => exact remove_rep R hh
    | removeInit e he =>
      have L := R.linked e [] he
      simp only [List.cons_append, List.nil_append, Linked, and_true] at L
      refine ⟨?_, ?_, ?_⟩
      rotate_left
      · show remove H e = _
        unfold remove
        rw [L.1, L.2]
        simp only [Heap.setNext, if_pos, L.1]
        rfl
      · apply rep_single R (Or.inr he) none
        · intro x hx; simp [Heap.setPrev, hx]
        · exact Or.inr ⟨rfl, by simp [Heap.setPrev], by simp [Heap.setPrev]⟩
  · intro hs
    cases hs with
    | insertTwice h e he => show insert H h e = none; unfold insert; rw [checks_fail R (Or.inr he)]
    | insertNoList h e hh => show insert H h e = none; unfold insert; rw [checks_fail R (Or.inl hh)]
    | appendTwice h e he => show append H h e = none; unfold append; rw [checks_fail R (Or.inr he)]
    | appendNoList h e hh => show append H h e = none; unfold append; rw [checks_fail R (Or.inl hh)]
    | removeTwice e he =>
      show remove H e = none
      unfold remove
      rw [(detached_free R he).1]

/-- Runs of specified operations. -/
inductive Runs : Abs → List Op → Abs → Prop
  | nil (A : Abs) : Runs A [] A
  | cons (A A' A'' : Abs) (op : Op) (ops : List Op) (h : Step A op (some A')) (hr : Runs A' ops A'') : Runs A (op :: ops) A''

def execAll (H : Heap) : List Op → Option Heap
  | [] => some H
  | op :: ops =>
    match exec H op with
    | none => none
    | some H' => execAll H' ops

/-- Memory in which no list is initialised. -/
def blank : Heap := { next := fun _ => none, prev := fun _ => none }

theorem blank_rep : Rep blank (fun _ => none) :=
  ⟨(by intro h l hh; cases hh), (by intro h l hh; cases hh), (by intro h l _ _ hh; cases hh), fun _ _ => ⟨rfl, rfl⟩⟩

/-- The same for any sequence of operations from zeroed memory. -/
theorem lists_refine_run (ops : List Op) (A : Abs) (hr : Runs (fun _ => none) ops A) :
    ∃ H, execAll blank ops = some H ∧ Rep H A := by
  have : ∀ (B : Abs) (H0 : Heap), Rep H0 B → Runs B ops A → ∃ H, execAll H0 ops = some H ∧ Rep H A := by
    clear hr
    intro B H0 R hr
    induction hr generalizing H0 with
    | nil A => exact ⟨H0, rfl, R⟩
    | cons A A' A'' op ops h hr ih =>
      obtain ⟨H', e, R'⟩ := (lists_refine H0 A R op).1 A' h
      simp only [execAll, e]
      exact ih H' R'
  exact this _ _ blank_rep hr

/-- **C28, emptiness.**  `list_empty` tells whether the list has no elements. -/
theorem empty_iff (H : Heap) (A : Abs) (R : Rep H A) (h : Nat) (l : List Nat) (hh : A h = some l) : empty H h = some (l.isEmpty) := by
  obtain ⟨y, p, h1, h2, ⟨t, h3⟩, _⟩ := rep_ends R hh
  unfold empty
  rw [h1, h2]
  have N := R.nodup h l hh
  cases l with
  | nil => simp only [List.nil_append, List.cons.injEq] at h3; simp [h3.1]
  | cons a l =>
    simp only [List.cons_append, List.cons.injEq] at h3
    have : y ≠ h := by
      rintro rfl; rw [h3.1] at N; simp at N
    simp [this]

/-- **C28, iteration.**  Iterating over a list visits exactly its elements, in order. -/
theorem walk_elements (H : Heap) (A : Abs) (R : Rep H A) (h : Nat) (l : List Nat) (hh : A h = some l) (fuel : Nat)
    (hf : l.length < fuel) : ∃ n, H.next h = some n ∧ walk H h fuel n = some l := by
  have key : ∀ (m : List Nat) (n : Nat) (t : List Nat) (fuel : Nat), m ++ [h] = n :: t → Linked H (n :: t) → h ∉ m → m.length < fuel →
      walk H h fuel n = some m := by
    intro m
    induction m with
    | nil =>
      intro n t fuel e _ _ hf
      simp only [List.nil_append, List.cons.injEq] at e
      cases fuel with
      | zero => simp at hf
      | succ fuel => simp [walk, e.1]
    | cons a m ih =>
      intro n t fuel e L hm hf
      simp only [List.cons_append, List.cons.injEq] at e
      obtain ⟨rfl, rfl⟩ := e
      simp only [List.mem_cons, not_or] at hm
      cases fuel with
      | zero => simp at hf
      | succ fuel =>
        obtain ⟨n', t', _, e2⟩ := ring_front h m
        rw [← e2] at L
        have := ih n' t' fuel e2.symm L.2.2 hm.2 (by simp only [List.length_cons] at hf; omega)
        simp only [walk, if_neg (fun e => hm.1 (Eq.symm e)), L.1, this, Option.map_some]
  obtain ⟨n, t, e1, e2⟩ := ring_front h l
  have L := R.linked h l hh
  rw [e1] at L
  exact ⟨n, L.1, key l n t fuel e2.symm L.2.2 (List.nodup_cons.mp (R.nodup h l hh)).1 hf⟩

/-- **C28, removal while iterating.**  Removing elements while iterating safely visits every element once: afterwards the list
consists of the elements kept, in order, and all other lists are as before. -/
theorem sweep_filters (keep : Nat → Bool) (H : Heap) (A : Abs) (R : Rep H A) (h : Nat) (l : List Nat) (hh : A h = some l) (fuel : Nat)
    (hf : l.length < fuel) :
    ∃ n H', H.next h = some n ∧ sweep keep h fuel H n = some H' ∧ Rep H' (A.set h (some (l.filter keep))) := by
  have setset : ∀ (A : Abs) (u v : Option (List Nat)), (A.set h u).set h v = A.set h v := by
    intro A u v; funext x; unfold Abs.set; split <;> rfl
  have setself : ∀ (A : Abs) (u : List Nat), A h = some u → A.set h (some u) = A := by
    intro A u hu; funext x; unfold Abs.set; split
    · rename_i e; rw [e, hu]
    · rfl
  have key : ∀ (m done : List Nat) (A : Abs) (H : Heap) (n : Nat) (t : List Nat) (fuel : Nat), Rep H A → A h = some (done ++ m) →
      m ++ [h] = n :: t → m.length < fuel →
      ∃ H', sweep keep h fuel H n = some H' ∧ Rep H' (A.set h (some (done ++ m.filter keep))) := by
    intro m
    induction m with
    | nil =>
      intro done A H n t fuel R hA e hf
      simp only [List.nil_append, List.cons.injEq] at e
      cases fuel with
      | zero => simp at hf
      | succ fuel =>
        refine ⟨H, by simp [sweep, e.1], ?_⟩
        simp only [List.filter_nil]
        rw [setself A _ hA]; exact R
    | cons a m ih =>
      intro done A H n t fuel R hA e hf
      simp only [List.cons_append, List.cons.injEq] at e
      obtain ⟨rfl, rfl⟩ := e
      cases fuel with
      | zero => simp at hf
      | succ fuel =>
        simp only [List.length_cons] at hf
        have hne : a ≠ h := by
          rintro rfl
          have := R.nodup a _ hA
          simp at this
        obtain ⟨n', q, X, Y, h1, h2, _, h4, _, _⟩ := rep_element R hA
        by_cases hk : keep a = true
        · obtain ⟨H', e1, e2⟩ := ih (done ++ [a]) A H n' Y fuel R (by simpa using hA) h4 (by omega)
          refine ⟨H', ?_, ?_⟩
          · simp only [sweep, if_neg hne, h1, hk, if_true]; exact e1
          · rw [List.filter_cons_of_pos hk]; simpa using e2
        · obtain ⟨H1, e0, R1⟩ := remove_rep R hA
          obtain ⟨H', e1, e2⟩ := ih done _ H1 n' Y fuel R1 (by simp [Abs.set]) h4 (by omega)
          refine ⟨H', ?_, ?_⟩
          · simp only [sweep, if_neg hne, h1, hk, e0]; exact e1
          · rw [List.filter_cons_of_neg hk]; rw [setset] at e2; exact e2
  obtain ⟨y, p, h1, _, ⟨t, h3⟩, _⟩ := rep_ends R hh
  obtain ⟨H', e1, e2⟩ := key l [] A H y t fuel R (by simpa using hh) h3 hf
  exact ⟨y, H', h1, e1, by simpa using e2⟩

/-- Non-vacuity: a list with three elements, one removed. -/
example : (execAll blank [.init 0, .insert 0 1, .append 0 2, .insert 0 3, .remove 1]).bind
    (fun H => (H.next 0).bind (walk H 0 10)) = some [3, 2] := by decide
example : (execAll blank [.init 0, .insert 0 1, .append 0 2, .insert 0 3]).bind
    (fun H => (H.next 0).bind (fun n => (sweep (· != 1) 0 10 H n).bind (fun H => (H.next 0).bind (walk H 0 10)))) = some [3, 2] := by
  decide
example : (execAll blank [.init 0, .insert 0 1, .insert 0 1]).isNone = true := by decide
example : (execAll blank [.init 0, .insert 0 1, .remove 1, .remove 1]).isNone = true := by decide
example : Runs (fun _ => none) [.init 0, .insert 0 1]
    (Abs.set (Abs.set (fun _ => none) 0 (some [])) 0 (some [1])) :=
  .cons _ _ _ _ _ (.init 0 (Or.inl ⟨rfl, by rintro ⟨h, l, hh, _⟩; cases hh⟩))
    (.cons _ _ _ _ _ (.insert 0 1 [] (by simp [Abs.set]) ⟨by simp [Abs.set], by
      rintro ⟨h, l, hh, hl⟩
      simp only [Abs.set] at hh
      split at hh <;> cases hh
      simp at hl⟩) (.nil _))

end Libinput.Lists
