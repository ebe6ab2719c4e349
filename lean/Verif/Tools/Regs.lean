import Verif.Tools.Inv
/-
What the kernel said of the tool last, and where devices come from.
-/
namespace Libinput.Tools

/-- Where the tablets after a step come from. -/
theorem step_tablets (db : Nat → Option Stylus) (s : State) (o : Op) (b : Tablet) (hb : b ∈ (step db s o).tablets) :
    (∃ d, o = .add d ∧ d.rejected = false ∧ b = Tablet.init s.uids d) ∨
    ∃ c ∈ s.tablets, b.uid = c.uid ∧ b.dev = c.dev ∧
      (b.kind = c.kind ∨ (∃ k, o = .tool c.uid k ∧ b.kind = some k) ∨ ∃ k v, o = .already c.uid k v ∧ b.kind = some k) ∧
      (b.id = c.id ∨ (∃ v, o = .toolId c.uid v ∧ b.id = wrap v) ∨ ∃ k v, o = .already c.uid k v ∧ b.id = wrap v) ∧
      (b.serial = c.serial ∨ (∃ v, o = .serial c.uid v ∧ v ≠ -1 ∧ b.serial = wrap v) ∨
        ∃ k v, o = .already c.uid k v ∧ b.serial = 0) := by
  cases o with
  | add d =>
    simp only [step] at hb
    split at hb
    · exact .inr ⟨b, hb, rfl, rfl, .inl rfl, .inl rfl, .inl rfl⟩
    · rcases List.mem_cons.mp hb with rfl | hb
      · exact .inl ⟨d, rfl, (Bool.eq_false_iff.mpr (by assumption)), rfl⟩
      · exact .inr ⟨b, hb, rfl, rfl, .inl rfl, .inl rfl, .inl rfl⟩
  | remove u => exact .inr ⟨b, (List.mem_filter.mp hb).1, rfl, rfl, .inl rfl, .inl rfl, .inl rfl⟩
  | serial u v =>
    simp only [step] at hb
    split at hb
    · exact .inr ⟨b, hb, rfl, rfl, .inl rfl, .inl rfl, .inl rfl⟩
    · obtain ⟨c, hc, rfl⟩ := mem_update hb
      refine .inr ⟨c, hc, ?_⟩
      by_cases hu : c.uid = u
      · subst hu
        rw [if_pos rfl]
        exact ⟨rfl, rfl, .inl rfl, .inl rfl, .inr (.inl ⟨v, rfl, ‹_›, rfl⟩)⟩
      · simp [hu]
  | toolId u v =>
    obtain ⟨c, hc, rfl⟩ := mem_update hb
    refine .inr ⟨c, hc, ?_⟩
    by_cases hu : c.uid = u
    · subst hu
      rw [if_pos rfl]
      exact ⟨rfl, rfl, .inl rfl, .inr (.inl ⟨v, rfl, rfl⟩), .inl rfl⟩
    · simp [hu]
  | tool u k =>
    simp only [step] at hb
    split at hb
    · exact .inr ⟨b, hb, rfl, rfl, .inl rfl, .inl rfl, .inl rfl⟩
    · obtain ⟨c, hc, rfl⟩ := mem_update hb
      refine .inr ⟨c, hc, ?_⟩
      by_cases hu : c.uid = u
      · subst hu
        rw [if_pos rfl]
        exact ⟨rfl, rfl, .inr (.inl ⟨k, rfl, rfl⟩), .inl rfl, .inl rfl⟩
      · simp [hu]
  | already u k v =>
    simp only [step] at hb
    split at hb
    · exact .inr ⟨b, hb, rfl, rfl, .inl rfl, .inl rfl, .inl rfl⟩
    · obtain ⟨c, hc, rfl⟩ := mem_update hb
      refine .inr ⟨c, hc, ?_⟩
      by_cases hu : c.uid = u
      · subst hu
        rw [if_pos rfl]
        exact ⟨rfl, rfl, .inr (.inr ⟨k, v, rfl, rfl⟩), .inr (.inr ⟨k, v, rfl, rfl⟩), .inr (.inr ⟨k, v, rfl, rfl⟩)⟩
      · simp [hu]
  | frame u =>
    right
    have hold : b ∈ s.tablets → _ := fun hb => (⟨b, hb, rfl, rfl, .inl rfl, .inl rfl, .inl rfl⟩ :
      ∃ c ∈ s.tablets, b.uid = c.uid ∧ b.dev = c.dev ∧
      (b.kind = c.kind ∨ (∃ k, Op.frame u = .tool c.uid k ∧ b.kind = some k) ∨
        ∃ k v, Op.frame u = .already c.uid k v ∧ b.kind = some k) ∧
      (b.id = c.id ∨ (∃ v, Op.frame u = .toolId c.uid v ∧ b.id = wrap v) ∨
        ∃ k v, Op.frame u = .already c.uid k v ∧ b.id = wrap v) ∧
      (b.serial = c.serial ∨ (∃ v, Op.frame u = .serial c.uid v ∧ v ≠ -1 ∧ b.serial = wrap v) ∨
        ∃ k v, Op.frame u = .already c.uid k v ∧ b.serial = 0))
    simp only [step, flush] at hb
    split at hb
    · exact hold hb
    · split at hb
      · exact hold hb
      · rename_i x hf k hk
        unfold getTool at hb
        split at hb
        · exact hold hb
        · split at hb
          · exact hold hb
          · unfold addTool at hb
            simp only at hb
            split at hb
            · exact hold hb
            · obtain ⟨c, hc, rfl⟩ := mem_update hb
              refine ⟨c, hc, ?_⟩
              split <;> simp
  | totem => exact .inr ⟨b, hb, rfl, rfl, .inl rfl, .inl rfl, .inl rfl⟩

/-- What a step tells. -/
theorem step_told (db : Nat → Option Stylus) (s : State) (o : Op) :
    (step db s o).told = s.told ∨
    ∃ b ∈ s.tablets, ∃ k t, b.kind = some k ∧
      (step db s o).told = s.told ++ [⟨b.uid, b.dev, k, b.id, b.serial, t⟩] := by
  cases o with
  | frame u =>
    simp only [step, flush]
    split
    · exact .inl rfl
    · rename_i b hf
      obtain ⟨hb, rfl⟩ := find_some hf
      split
      · exact .inl rfl
      · rename_i k hk
        exact .inr ⟨b, hb, k, _, hk, rfl⟩
  | add d => simp only [step]; split <;> exact .inl rfl
  | remove u => exact .inl rfl
  | serial u v => simp only [step]; split <;> exact .inl rfl
  | toolId u v => exact .inl rfl
  | tool u k => simp only [step]; split <;> exact .inl rfl
  | already u k v => simp only [step]; split <;> exact .inl rfl
  | totem => exact .inl rfl

theorem step_uids (db : Nat → Option Stylus) (s : State) (o : Op) : s.uids ≤ (step db s o).uids := by
  cases o with
  | frame u =>
    simp only [step, flush]
    split
    · exact Nat.le_refl _
    · split
      · exact Nat.le_refl _
      · unfold getTool
        split
        · exact Nat.le_refl _
        · split
          · exact Nat.le_refl _
          · unfold addTool; simp only; split <;> exact Nat.le_refl _
  | add d => simp only [step]; split <;> simp
  | remove u => exact Nat.le_refl _
  | serial u v => simp only [step]; split <;> exact Nat.le_refl _
  | toolId u v => exact Nat.le_refl _
  | tool u k => simp only [step]; split <;> exact Nat.le_refl _
  | already u k v => simp only [step]; split <;> exact Nat.le_refl _
  | totem => exact Nat.le_refl _

/-- Every device in use was plugged in and accepted. -/
theorem run_devices (db : Nat → Option Stylus) (P : Device → Prop) (ops : List Op)
    (hP : ∀ d, .add d ∈ ops → d.rejected = false → P d.prepare) (s : State)
    (h1 : ∀ b ∈ s.tablets, P b.dev) (h2 : ∀ e ∈ s.told, P e.dev) :
    (∀ b ∈ (run db s ops).tablets, P b.dev) ∧ ∀ e ∈ (run db s ops).told, P e.dev := by
  induction ops generalizing s with
  | nil => exact ⟨h1, h2⟩
  | cons o ops ih =>
    refine ih (fun d hd => hP d (List.mem_cons_of_mem _ hd)) _ ?_ ?_
    · intro b hb
      rcases step_tablets db s o b hb with ⟨d, rfl, hd, rfl⟩ | ⟨c, hc, -, hd, -⟩
      · exact hP d (List.mem_cons_self ..) hd
      · rw [hd]; exact h1 c hc
    · intro e he
      rcases step_told db s o with h | ⟨b, hb, k, t, hk, h⟩
      · rw [h] at he; exact h2 e he
      · rw [h, List.mem_append, List.mem_singleton] at he
        rcases he with he | rfl
        · exact h2 e he
        · exact h1 b hb

/-- Something the kernel said of tablet `u` holds until it says something else. -/
theorem run_keeps {α : Type} (db : Nat → Option Stylus) (u : Nat) (f : Tablet → α) (g : Told → Prop)
    (a : α) (ops : List Op)
    (hg : ∀ b : Tablet, ∀ k t, b.kind = some k → f b = a → g ⟨b.uid, b.dev, k, b.id, b.serial, t⟩)
    (hop : ∀ o ∈ ops, ∀ (s : State), u < s.uids → ∀ b ∈ (step db s o).tablets, b.uid = u →
      ∃ c ∈ s.tablets, c.uid = u ∧ f b = f c) (s : State) (hu : u < s.uids)
    (h : ∀ b ∈ s.tablets, b.uid = u → f b = a) :
    ∃ new, (run db s ops).told = s.told ++ new ∧ ∀ e ∈ new, e.uid = u → g e := by
  induction ops generalizing s with
  | nil => exact ⟨[], by simp [run], by simp⟩
  | cons o ops ih =>
    obtain ⟨new, h1, h2⟩ := ih (fun o ho => hop o (List.mem_cons_of_mem _ ho)) (step db s o)
      (Nat.lt_of_lt_of_le hu (step_uids db s o)) (by
        intro b hb hbu
        obtain ⟨c, hc, hcu, hf⟩ := hop o (List.mem_cons_self ..) s hu b hb hbu
        rw [hf]; exact h c hc hcu)
    rcases step_told db s o with ht | ⟨b, hb, k, t, hk, ht⟩
    · exact ⟨new, by rw [← ht]; exact h1, h2⟩
    · refine ⟨⟨b.uid, b.dev, k, b.id, b.serial, t⟩ :: new, ?_, ?_⟩
      · show (run db (step db s o) ops).told = _
        rw [h1, ht]; simp
      · intro e he heu
        rcases List.mem_cons.mp he with rfl | he
        · exact hg b k t hk (h b hb heu)
        · exact h2 e he heu

theorem firstUse_unique {told : List Told} {t : Tool} {e e' : Told} (h : Spec.FirstUse told t e)
    (h' : Spec.FirstUse told t e') : e = e' := by
  obtain ⟨pre, post, rfl, h2, h3⟩ := h
  obtain ⟨pre', post', g1, g2, g3⟩ := h'
  induction pre generalizing pre' with
  | nil =>
    cases pre' with
    | nil => simpa using (List.cons.inj g1).1
    | cons y ys =>
      have : e = y := (List.cons.inj g1).1
      exact absurd (this ▸ h2) (g3 y (List.mem_cons_self ..))
  | cons x xs ih =>
    cases pre' with
    | nil =>
      have : x = e' := (List.cons.inj g1).1
      exact absurd (this ▸ g2) (h3 x (List.mem_cons_self ..))
    | cons y ys =>
      exact ih (fun z hz => h3 z (List.mem_cons_of_mem _ hz)) ys (List.cons.inj g1).2
        (fun z hz => g3 z (List.mem_cons_of_mem _ hz))

end Libinput.Tools
