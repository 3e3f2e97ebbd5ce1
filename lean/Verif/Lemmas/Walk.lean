import Verif.Spec.Layout
/-!
# Every command executed on a walk follows its rule
-/
namespace Armips.Spec.Layout
open Armips Spec.Out Table

theorem Seeks.out {R p R'} (h : Seeks R p R') : R'.out = R.out := by obtain ⟨_, _, _, _, _, rfl⟩ := h; rfl
theorem SeeksVirtual.out {R p R'} (h : SeeksVirtual R p R') : R'.out = R.out := by obtain ⟨_, _, _, h⟩ := h; exact h.out
theorem Skips.out {R p R'} (h : Skips R p R') : R'.out = R.out := Seeks.out h
theorem NewSection.out {R R'} (h : NewSection R R') : R'.out = R.out := by obtain ⟨_, rfl⟩ := h; rfl
theorem Emits.out {P R bs R'} (h : Emits P R bs R') : R.out <+: R'.out := by
  obtain ⟨_, _, _, rfl⟩ := h; exact List.prefix_append _ _
theorem Opens.out {P R i R'} (h : Opens P R i R') : R.out <+: R'.out := by
  obtain ⟨_, rfl, _⟩ := h; exact List.prefix_append _ _
theorem AreaStart.out {P R e p R'} (h : AreaStart P R e p R') : R'.out = R.out := by
  unfold AreaStart at h
  split at h
  · rw [h.2]
  · obtain ⟨R0, _, h1, h2⟩ := h; rw [h2.out, h1.out]
theorem AreaRest.out {P R fill shared p n f R'} (h : AreaRest P R fill shared p n f R') : R.out <+: R'.out := by
  unfold AreaRest at h
  split at h
  · obtain ⟨R3, h1, _, h2⟩ := h; rw [← h1.out]; exact h2.out
  · split at h
    · rw [h.out]; exact List.prefix_rfl
    · rw [h]; exact List.prefix_rfl

/-- The history of the disk only grows. -/
theorem Lays.out {P b c R R' vs} (h : Lays P b c R R' vs) : R.out <+: R'.out := by
  induction h with
  | nil => exact List.prefix_rfl
  | cons _ _ ih1 ih2 => exact ih1.trans ih2
  | label => exact List.prefix_rfl
  | function _ _ ih => exact ih
  | openFile h1 h2 => rw [← h1.out]; exact h2.out
  | closeFile h1 => rw [← h1.out]; exact List.prefix_rfl
  | org _ h1 h2 => rw [← h1.out, ← h2.out]; exact List.prefix_rfl
  | orga _ h1 h2 => rw [← h1.out, ← h2.out]; exact List.prefix_rfl
  | incbin _ _ _ _ _ h1 h2 => rw [← h1.out]; exact h2.out
  | align _ _ _ h1 h2 => rw [← h1.out]; exact h2.out
  | skip _ h1 h2 => rw [← h1.out, ← h2.out]; exact List.prefix_rfl
  | headerSize _ _ h => rw [h]; exact List.prefix_rfl
  | data _ h => exact h.out
  | table => exact List.prefix_rfl
  | area h1 _ _ _ _ _ h2 _ _ h3 ih => subst h3; rw [← h1.out]; exact ih.trans h2.out
  | autoRegion _ _ _ h1 h2 _ _ h3 ih =>
    rw [← h3.out] at ih
    rw [h2.out, h1.out] at ih
    exact ih
  | cond _ _ ih => exact ih
  | arch h => rw [h]; exact List.prefix_rfl
  | message => exact List.prefix_rfl
  | mipsMacro _ ih => exact ih
  | instr _ _ h1 h2 => have := h2.out; rw [h1] at this; exact this
  | pool _ h1 h2 => have := h1.out; rw [h2]; exact this

/-- What `Lays.visit` says of one command. -/
def Follows (P : Params) (R R' : Pos) (vs : List Visit) (v : Visit) : Prop :=
  ∃ b' ws, Lays P b' v.cmd v.before v.after ws ∧
    (∀ w ∈ ws, w ∈ vs) ∧ R.out <+: v.before.out ∧ v.after.out <+: R'.out

theorem visit_leaf {P b c R R'} (h : Lays P b c R R' [⟨c, R, R'⟩]) : ∀ v ∈ [(⟨c, R, R'⟩ : Visit)], Follows P R R' [⟨c, R, R'⟩] v := by
  intro v hv
  rw [List.mem_singleton] at hv
  subst hv
  exact ⟨b, _, h, fun _ hw => hw, List.prefix_rfl, List.prefix_rfl⟩

theorem visit_tree {P b c R R' vs} (h : Lays P b c R R' (⟨c, R, R'⟩ :: vs)) (ih : ∀ v ∈ vs, Follows P R R' vs v) :
    ∀ v ∈ (⟨c, R, R'⟩ : Visit) :: vs, Follows P R R' (⟨c, R, R'⟩ :: vs) v := by
  intro v hv
  rcases List.mem_cons.mp hv with hv | hv
  · rw [hv]; exact ⟨b, _, h, fun _ hw => hw, List.prefix_rfl, List.prefix_rfl⟩
  · obtain ⟨b', ws, h1, h2, h3, h4⟩ := ih v hv
    exact ⟨b', ws, h1, fun w hw => List.mem_cons_of_mem _ (h2 w hw), h3, h4⟩

/-- A command executed on a walk was executed according to its own rule; what it did to the disk is part of the history. -/
theorem Lays.visit {P b c R R' vs} (h : Lays P b c R R' vs) : ∀ v ∈ vs, Follows P R R' vs v := by
  induction h with
  | nil => intro v hv; exact absurd hv List.not_mem_nil
  | cons l1 l2 ih1 ih2 =>
    intro v hv
    rcases List.mem_append.mp hv with hv | hv
    · obtain ⟨b', ws, h1, h2, h3, h4⟩ := ih1 v hv
      exact ⟨b', ws, h1, fun w hw => List.mem_append_left _ (h2 w hw), h3, h4.trans l2.out⟩
    · obtain ⟨b', ws, h1, h2, h3, h4⟩ := ih2 v hv
      exact ⟨b', ws, h1, fun w hw => List.mem_append_right _ (h2 w hw), l1.out.trans h3, h4⟩
  | label h => exact visit_leaf (b := false) (.label h)
  | function h1 h2 ih => exact visit_tree (b := false) (.function h1 h2) ih
  | openFile h1 h2 => exact visit_leaf (b := false) (.openFile h1 h2)
  | closeFile h1 => exact visit_leaf (b := false) (.closeFile h1)
  | org h1 h2 h3 => exact visit_leaf (b := false) (.org h1 h2 h3)
  | orga h1 h2 h3 => exact visit_leaf (b := false) (.orga h1 h2 h3)
  | incbin h1 h2 h3 h4 h5 h6 h7 => exact visit_leaf (b := false) (.incbin h1 h2 h3 h4 h5 h6 h7)
  | align h1 h2 h3 h4 h5 => exact visit_leaf (b := false) (.align h1 h2 h3 h4 h5)
  | skip h1 h2 h3 => exact visit_leaf (b := false) (.skip h1 h2 h3)
  | headerSize h1 h2 h3 => exact visit_leaf (b := false) (.headerSize h1 h2 h3)
  | data h1 h2 => exact visit_leaf (b := false) (.data h1 h2)
  | table => exact visit_leaf (b := false) .table
  | area h1 h2 h3 h4 h5 h6 h7 h8 h9 h10 ih =>
    refine visit_tree (b := false) (.area h1 h2 h3 h4 h5 h6 h7 h8 h9 h10) ?_
    subst h10
    intro v hv
    obtain ⟨b', ws, i1, i2, i3, i4⟩ := ih v hv
    exact ⟨b', ws, i1, i2, by rw [← h1.out]; exact i3, i4.trans h7.out⟩
  | autoRegion h1 h2 h3 h4 h5 h6 h7 h8 ih =>
    refine visit_tree (b := false) (.autoRegion h1 h2 h3 h4 h5 h6 h7 h8) ?_
    intro v hv
    obtain ⟨b', ws, i1, i2, i3, i4⟩ := ih v hv
    rw [h5.out, h4.out] at i3
    exact ⟨b', ws, i1, i2, i3, by rw [h8.out]; exact i4⟩
  | cond h1 h2 ih => exact visit_tree (.cond h1 h2) ih
  | arch h => exact visit_leaf (b := false) (.arch h)
  | message h1 h2 h3 => exact visit_leaf (b := false) (.message h1 h2 h3)
  | mipsMacro h ih => exact visit_tree (.mipsMacro h) ih
  | instr h1 h2 h3 h4 => exact visit_leaf (b := false) (.instr h1 h2 h3 h4)
  | pool h1 h2 h3 => exact visit_leaf (b := false) (.pool h1 h2 h3)

/-! ## Bytes on disk -/

theorem overwrite_inside {c : List Byte} {pos : Nat} {bs : List Byte} {k : Nat} (hk : k < bs.length) :
    (overwrite c pos bs)[pos + k]? = some bs[k] := by
  have hne : bs ≠ [] := by intro h; rw [h] at hk; exact absurd hk (Nat.not_lt_zero _)
  unfold overwrite
  rw [if_neg hne, List.append_assoc, List.append_assoc]
  have hl : (c.take pos ++ List.replicate (pos - c.length) 0#8).length = pos := by
    simp only [List.length_append, List.length_take, List.length_replicate]; omega
  rw [← List.append_assoc, List.getElem?_append_right (by omega), hl, Nat.add_sub_cancel_left,
    List.getElem?_append_left hk, List.getElem?_eq_getElem hk]

theorem overwrite_outside {c : List Byte} {pos : Nat} {bs : List Byte} {a : Nat} {x : Byte} (hc : c[a]? = some x)
    (h : ¬ (pos ≤ a ∧ a < pos + bs.length)) : (overwrite c pos bs)[a]? = some x := by
  unfold overwrite
  split
  · exact hc
  · have ha : a < c.length := by
      rcases Nat.lt_or_ge a c.length with h | h
      · exact h
      · rw [List.getElem?_eq_none h] at hc; exact nomatch hc
    have hl : (c.take pos ++ List.replicate (pos - c.length) 0#8).length = pos := by
      simp only [List.length_append, List.length_take, List.length_replicate]; omega
    rcases Nat.lt_or_ge a pos with h1 | h1
    · rw [List.append_assoc, List.append_assoc, List.getElem?_append_left (by simp only [List.length_take]; omega),
        List.getElem?_take, if_pos h1]
      exact hc
    · have h2 : pos + bs.length ≤ a := by omega
      rw [List.getElem?_append_right (by rw [List.length_append, hl]; omega), List.length_append, hl,
        List.getElem?_drop]
      rw [show pos + bs.length + (a - (pos + bs.length)) = a by omega]
      exact hc

theorem after_keeps {p : String} {a : Nat} {x : Byte} (es : List Event) (hes : ∀ e ∈ es, ¬ e.touches p a)
    (d : String → Option (List Byte)) (hd : ∃ c, d p = some c ∧ c[a]? = some x) :
    ∃ c, after d es p = some c ∧ c[a]? = some x := by
  induction es generalizing d with
  | nil => exact hd
  | cons e es ih =>
    refine ih (fun e' he' => hes e' (List.mem_cons_of_mem _ he')) (Event.apply d e) ?_
    have ht := hes e (List.mem_cons_self ..)
    obtain ⟨c, hc, hx⟩ := hd
    cases e with
    | create q c' =>
      unfold Event.touches at ht
      refine ⟨c, ?_, hx⟩
      unfold Event.apply
      dsimp only
      rw [if_neg (fun h => ht h.symm)]
      exact hc
    | write q pos bs =>
      unfold Event.touches at ht
      unfold Event.apply
      dsimp only
      by_cases hq : p = q
      · subst hq
        rw [if_pos rfl]
        refine ⟨_, rfl, ?_⟩
        rw [hc]
        exact overwrite_outside hx (fun h => ht ⟨rfl, h⟩)
      · rw [if_neg hq]
        exact ⟨c, hc, hx⟩

/-- A byte that was written and not replaced later is on the disk. -/
theorem after_written {d : String → Option (List Byte)} {pre later : List Event} {p : String} {pos : Nat} {bs : List Byte}
    {k : Nat} (hk : k < bs.length) (hl : ∀ e ∈ later, ¬ e.touches p (pos + k)) :
    ∃ content, after d (pre ++ [.write p pos bs] ++ later) p = some content ∧ content[pos + k]? = some bs[k] := by
  have h1 : after d (pre ++ [.write p pos bs] ++ later) = after (Event.apply (after d pre) (.write p pos bs)) later := by
    unfold after
    rw [List.foldl_append, List.foldl_append]
    rfl
  rw [h1]
  refine after_keeps later hl _ ⟨overwrite ((after d pre p).getD []) pos bs, ?_, overwrite_inside hk⟩
  show (if p = p then some (overwrite ((after d pre p).getD []) pos bs) else after d pre p) = _
  rw [if_pos rfl]

/-- A command executed on a walk was executed according to its own rule, and the commands executed inside it are those that
directly follow it in the list. -/
def Within (P : Params) (vs : List Visit) (v : Visit) : Prop :=
  ∃ b pre ws post, vs = pre ++ ws ++ post ∧ Lays P b v.cmd v.before v.after ws

theorem within_self {P b c R R' vs} (h : Lays P b c R R' (⟨c, R, R'⟩ :: vs)) (ih : ∀ v ∈ vs, Within P vs v) :
    ∀ v ∈ (⟨c, R, R'⟩ : Visit) :: vs, Within P (⟨c, R, R'⟩ :: vs) v := by
  intro v hv
  rcases List.mem_cons.mp hv with hv | hv
  · rw [hv]; exact ⟨b, [], _, [], by rw [List.nil_append, List.append_nil], h⟩
  · obtain ⟨b', pre, ws, post, h1, h2⟩ := ih v hv
    exact ⟨b', ⟨c, R, R'⟩ :: pre, ws, post, by rw [h1]; rfl, h2⟩

theorem within_nil {P : Params} : ∀ v ∈ ([] : List Visit), Within P [] v := by
  intro v hv; exact absurd hv List.not_mem_nil

theorem Lays.within {P b c R R' vs} (h : Lays P b c R R' vs) : ∀ v ∈ vs, Within P vs v := by
  induction h with
  | nil => exact within_nil
  | @cons _ _ _ _ _ _ v1 v2 l1 l2 ih1 ih2 =>
    intro v hv
    rcases List.mem_append.mp hv with hv | hv
    · obtain ⟨b', pre, ws, post, h1, h2⟩ := ih1 v hv
      refine ⟨b', pre, ws, post ++ v2, ?_, h2⟩
      rw [h1]; simp only [List.append_assoc]
    · obtain ⟨b', pre, ws, post, h1, h2⟩ := ih2 v hv
      refine ⟨b', v1 ++ pre, ws, post, ?_, h2⟩
      rw [h1]
      simp only [List.append_assoc]
  | label h => exact within_self (b := false) (.label h) within_nil
  | function h1 h2 ih => exact within_self (b := false) (.function h1 h2) ih
  | openFile h1 h2 => exact within_self (b := false) (.openFile h1 h2) within_nil
  | closeFile h1 => exact within_self (b := false) (.closeFile h1) within_nil
  | org h1 h2 h3 => exact within_self (b := false) (.org h1 h2 h3) within_nil
  | orga h1 h2 h3 => exact within_self (b := false) (.orga h1 h2 h3) within_nil
  | incbin h1 h2 h3 h4 h5 h6 h7 => exact within_self (b := false) (.incbin h1 h2 h3 h4 h5 h6 h7) within_nil
  | align h1 h2 h3 h4 h5 => exact within_self (b := false) (.align h1 h2 h3 h4 h5) within_nil
  | skip h1 h2 h3 => exact within_self (b := false) (.skip h1 h2 h3) within_nil
  | headerSize h1 h2 h3 => exact within_self (b := false) (.headerSize h1 h2 h3) within_nil
  | data h1 h2 => exact within_self (b := false) (.data h1 h2) within_nil
  | table => exact within_self (b := false) .table within_nil
  | area h1 h2 h3 h4 h5 h6 h7 h8 h9 h10 ih =>
    exact within_self (b := false) (.area h1 h2 h3 h4 h5 h6 h7 h8 h9 h10) ih
  | autoRegion h1 h2 h3 h4 h5 h6 h7 h8 ih => exact within_self (b := false) (.autoRegion h1 h2 h3 h4 h5 h6 h7 h8) ih
  | cond h1 h2 ih => exact within_self (.cond h1 h2) ih
  | arch h => exact within_self (b := false) (.arch h) within_nil
  | message h1 h2 h3 => exact within_self (b := false) (.message h1 h2 h3) within_nil
  | mipsMacro h ih => exact within_self (.mipsMacro h) ih
  | instr h1 h2 h3 h4 => exact within_self (b := false) (.instr h1 h2 h3 h4) within_nil
  | pool h1 h2 h3 => exact within_self (b := false) (.pool h1 h2 h3) within_nil

/-! ## Literal pools -/

theorem Seeks.pending {R p R'} (h : Seeks R p R') : R'.pending = R.pending := by obtain ⟨_, _, _, _, _, rfl⟩ := h; rfl
theorem SeeksVirtual.pending {R p R'} (h : SeeksVirtual R p R') : R'.pending = R.pending := by obtain ⟨_, _, _, h⟩ := h; exact h.pending
theorem Skips.pending {R p R'} (h : Skips R p R') : R'.pending = R.pending := Seeks.pending h
theorem NewSection.pending {R R'} (h : NewSection R R') : R'.pending = R.pending := by obtain ⟨_, rfl⟩ := h; rfl
theorem Emits.pending {P R bs R'} (h : Emits P R bs R') : R'.pending = R.pending := by obtain ⟨_, _, _, rfl⟩ := h; rfl
theorem Opens.pending {P R i R'} (h : Opens P R i R') : R'.pending = R.pending := by obtain ⟨_, rfl, _⟩ := h; rfl
theorem AreaStart.pending {P R e p R'} (h : AreaStart P R e p R') : R'.pending = R.pending := by
  unfold AreaStart at h
  split at h
  · rw [h.2]
  · obtain ⟨R0, _, h1, h2⟩ := h; rw [h2.pending, h1.pending]
theorem AreaRest.pending {P R fill shared p n f R'} (h : AreaRest P R fill shared p n f R') : R'.pending = R.pending := by
  unfold AreaRest at h
  split at h
  · obtain ⟨R3, h1, _, h2⟩ := h; rw [h2.pending, h1.pending]
  · split at h
    · exact h.pending
    · rw [h]

/-- A request pending before or made during the walk is pending at the end or known to a pool command on the way. -/
def ServedBy (P : Params) (R R' : Pos) (vs : List Visit) : Prop :=
  ∀ e, (e ∈ R.pending ∨ ∃ v ∈ vs, Requests P v e) → e ∈ R'.pending ∨ ∃ w ∈ vs, w.cmd = .pool ∧ e ∈ w.before.pending

theorem served_quiet {P : Params} {c : Cmd} {R R' : Pos} (h : R'.pending = R.pending) (hc : ∀ sem, c ≠ .instr sem) :
    ServedBy P R R' [⟨c, R, R'⟩] := by
  intro e he
  rcases he with he | ⟨v, hv, sem, out, as, ds, value, h1, _⟩
  · exact .inl (h ▸ he)
  · rw [List.mem_singleton] at hv
    subst hv
    exact absurd h1 (hc sem)

theorem served_tree {P : Params} {c : Cmd} {R R' R1 R2 : Pos} {vs} (h1 : R1.pending = R.pending) (h2 : R'.pending = R2.pending)
    (hc : ∀ sem, c ≠ .instr sem) (ih : ServedBy P R1 R2 vs) : ServedBy P R R' (⟨c, R, R'⟩ :: vs) := by
  intro e he
  have : e ∈ R1.pending ∨ ∃ v ∈ vs, Requests P v e := by
    rcases he with he | ⟨v, hv, hr⟩
    · exact .inl (h1 ▸ he)
    · rcases List.mem_cons.mp hv with hv | hv
      · subst hv
        obtain ⟨sem, _, _, _, _, h, _⟩ := hr
        exact absurd h (hc sem)
      · exact .inr ⟨v, hv, hr⟩
  rcases ih e this with h | ⟨w, hw, h⟩
  · exact .inl (h2 ▸ h)
  · exact .inr ⟨w, List.mem_cons_of_mem _ hw, h⟩

theorem Lays.servedBy {P b c R R' vs} (h : Lays P b c R R' vs) : ServedBy P R R' vs := by
  induction h with
  | nil =>
    intro e he
    rcases he with he | ⟨v, hv, _⟩
    · exact .inl he
    · exact absurd hv List.not_mem_nil
  | @cons _ _ _ _ Rm _ v1 v2 l1 l2 ih1 ih2 =>
    intro e he
    have h1 : (∃ w ∈ v1, w.cmd = .pool ∧ e ∈ w.before.pending) ∨ (e ∈ Rm.pending ∨ ∃ v ∈ v2, Requests P v e) := by
      rcases he with he | ⟨v, hv, hr⟩
      · rcases ih1 e (.inl he) with h | h
        · exact .inr (.inl h)
        · exact .inl h
      · rcases List.mem_append.mp hv with hv | hv
        · rcases ih1 e (.inr ⟨v, hv, hr⟩) with h | h
          · exact .inr (.inl h)
          · exact .inl h
        · exact .inr (.inr ⟨v, hv, hr⟩)
    rcases h1 with ⟨w, hw, h⟩ | h
    · exact .inr ⟨w, List.mem_append_left _ hw, h⟩
    · rcases ih2 e h with h | ⟨w, hw, h⟩
      · exact .inl h
      · exact .inr ⟨w, List.mem_append_right _ hw, h⟩
  | label h => exact served_quiet rfl nofun
  | function h1 h2 ih => exact served_tree rfl rfl nofun ih
  | openFile h1 h2 => exact served_quiet (h2.pending.trans h1.pending) nofun
  | closeFile h1 => exact served_quiet h1.pending nofun
  | org _ h1 h2 => exact served_quiet (h2.pending.trans h1.pending) nofun
  | orga _ h1 h2 => exact served_quiet (h2.pending.trans h1.pending) nofun
  | incbin _ _ _ _ _ h1 h2 => exact served_quiet (h2.pending.trans h1.pending) nofun
  | align _ _ _ h1 h2 => exact served_quiet (h2.pending.trans h1.pending) nofun
  | skip _ h1 h2 => exact served_quiet (h2.pending.trans h1.pending) nofun
  | headerSize _ _ h => exact served_quiet (by rw [h]) nofun
  | data _ h => exact served_quiet h.pending nofun
  | table => exact served_quiet rfl nofun
  | area h1 _ _ _ _ _ h2 _ _ h3 ih =>
    refine served_tree h1.pending ?_ nofun ih
    rw [h3]; exact h2.pending
  | autoRegion _ _ _ h1 h2 _ _ h3 ih => exact served_tree (h2.pending.trans h1.pending) h3.pending nofun ih
  | cond _ _ ih => exact served_tree rfl rfl nofun ih
  | arch h => exact served_quiet (by rw [h]) nofun
  | message => exact served_quiet rfl nofun
  | mipsMacro _ ih => exact served_tree rfl rfl nofun ih
  | @instr b sem out as ds R R1 R' h0 _ h1 h2 =>
    intro e he
    refine .inl ?_
    rw [h2.pending, h1]
    rcases he with he | ⟨v, hv, sem', out', as', ds', value, e1, e2, e3, e4⟩
    · exact List.mem_append_left _ he
    · rw [List.mem_singleton] at hv
      subst hv
      injection e1 with e1
      subst e1
      rw [h0] at e2
      injection e2 with e2 _
      injection e2 with e2 _
      subst e2
      dsimp only
      rw [e3, e4]
      exact List.mem_append_right _ (List.mem_singleton.mpr rfl)
  | @pool b values pools R R1 R' h1 h2 h3 =>
    intro e he
    rcases he with he | ⟨v, hv, sem, out, as, ds, value, e1, _⟩
    · exact .inr ⟨_, List.mem_singleton.mpr rfl, rfl, he⟩
    · rw [List.mem_singleton] at hv
      subst hv
      exact nomatch e1

theorem Emits.wrote {P R bs R'} (h : Emits P R bs R') :
    ∃ i cur, R.file = some (i, cur) ∧ Wrote R R' (P.files i).fileName cur.phys bs ∧ R'.phys = R.phys + bs.length ∧
      R'.virt = R.virt + bs.length ∧ R.phys = cur.phys := by
  obtain ⟨i, cur, h1, rfl⟩ := h
  refine ⟨i, cur, h1, rfl, ?_, ?_, ?_⟩ <;> simp [Pos.phys, Pos.virt, h1, Cursor.virt] <;> omega

theorem NewSection.file {R R'} (h : NewSection R R') : R'.file = R.file := by obtain ⟨_, rfl⟩ := h; rfl
theorem NewSection.virt {R R'} (h : NewSection R R') : R'.virt = R.virt := by obtain ⟨_, rfl⟩ := h; rfl
theorem NewSection.phys {R R'} (h : NewSection R R') : R'.phys = R.phys := by obtain ⟨_, rfl⟩ := h; rfl

/-- Evaluation has one result. -/
theorem Evals.unique {P R e v v'} (h : Evals P R e v) (h' : Evals P R e v') : v = v' := by
  obtain ⟨_, h, _⟩ := h
  obtain ⟨_, h', _⟩ := h'
  rw [h] at h'
  injection h'


end Armips.Spec.Layout
