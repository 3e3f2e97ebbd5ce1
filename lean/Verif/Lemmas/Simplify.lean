import Verif.Spec.Expression
import Verif.Lemmas.Expression
import Verif.Lemmas.FunctionRegistry
namespace Armips

mutual
/-- Every function called is registered in `F₀` and has the same entry in `F`. -/
def Expr.Known (F₀ F : Funcs) : Expr → Prop
  | .un _ a => a.Known F₀ F
  | .bin _ a b => a.Known F₀ F ∧ b.Known F₀ F
  | .cond a b d => a.Known F₀ F ∧ b.Known F₀ F ∧ d.Known F₀ F
  | .toString_ a => a.Known F₀ F
  | .call n args => (∃ e, F₀ n = some e ∧ F n = some e) ∧ args.Known F₀ F
  | _ => True
def Args.Known (F₀ F : Funcs) : Args → Prop
  | .nil => True
  | .cons e r => e.Known F₀ F ∧ r.Known F₀ F
end

mutual
theorem Expr.known_of_calls (F₀ F : Funcs) (e : Expr) (h : ∀ n ∈ e.calls, (F₀ n).isSome ∧ F n = F₀ n) :
    e.Known F₀ F := by
  cases e with
  | un op a => exact Expr.known_of_calls F₀ F a (by simpa [Expr.calls] using h)
  | toString_ a => exact Expr.known_of_calls F₀ F a (by simpa [Expr.calls] using h)
  | bin op a b =>
    simp only [Expr.calls, List.mem_append] at h
    exact ⟨Expr.known_of_calls F₀ F a fun n hn => h n (.inl hn), Expr.known_of_calls F₀ F b fun n hn => h n (.inr hn)⟩
  | cond a b d =>
    simp only [Expr.calls, List.mem_append] at h
    exact ⟨Expr.known_of_calls F₀ F a fun n hn => h n (.inl (.inl hn)),
      Expr.known_of_calls F₀ F b fun n hn => h n (.inl (.inr hn)),
      Expr.known_of_calls F₀ F d fun n hn => h n (.inr hn)⟩
  | call n args =>
    simp only [Expr.calls, List.mem_cons] at h
    obtain ⟨e, he⟩ := Option.isSome_iff_exists.1 (h n (.inl rfl)).1
    exact ⟨⟨e, he, (h n (.inl rfl)).2.trans he⟩, Args.known_of_calls F₀ F args fun n hn => h n (.inr hn)⟩
  | invalid => trivial
  | int v => trivial
  | float v => trivial
  | ident n f s => trivial
  | str s => trivial
  | memoryPos => trivial
theorem Args.known_of_calls (F₀ F : Funcs) (a : Args) (h : ∀ n ∈ a.calls, (F₀ n).isSome ∧ F n = F₀ n) :
    a.Known F₀ F := by
  cases a with
  | nil => trivial
  | cons e r =>
    simp only [Args.calls, List.mem_append] at h
    exact ⟨Expr.known_of_calls F₀ F e fun n hn => h n (.inl hn), Args.known_of_calls F₀ F r fun n hn => h n (.inr hn)⟩
end

/-- Safety flags are those of the tables. -/
def RegOk (F : Funcs) : Prop :=
  ∀ n e, F n = some e → match e.kind with | .builtin b => e.safety = b.safety | _ => e.safety = .unsafe_

theorem regOk_run (ops : List Registry.Op) : RegOk (Registry.run ops).entries := by
  intro n e h
  rcases (Registry.inv_run ops).kinds n e h with h | ⟨_, _, f, h, h'⟩ | ⟨_, _, h⟩
  · unfold Registry.genericEntry at h
    rw [Option.or_eq_some_iff] at h
    rcases h with h | ⟨_, h⟩
    · simp only [Option.map_eq_some_iff] at h
      obtain ⟨f, _, h⟩ := h
      subst h; rfl
    · simp only [Option.map_eq_some_iff] at h
      obtain ⟨f, _, h⟩ := h
      subst h; rfl
  · rw [h]; exact h'
  · unfold Registry.archEntry at h
    simp only [Option.map_eq_some_iff] at h
    obtain ⟨f, _, h⟩ := h
    subst h; rfl

theorem exec_stable (H : Host) (b : Builtin) (inBlock : Bool) (c₀ c : Ctx) (h : Stable inBlock c₀ c)
    (hs : b.safety = .safe ∨ (b.safety = .conditionalUnsafe ∧ inBlock = false)) (vs : List Value) :
    b.exec H c₀ vs = b.exec H c vs := by
  cases b with
  | endianness => simp [Builtin.safety] at hs
  | outputName => simp [Builtin.safety] at hs
  | fileExists => simp only [Builtin.exec, h.exist]
  | fileSize => simp [Builtin.safety] at hs; simp only [Builtin.exec, h.content hs]
  | read n s => simp [Builtin.safety] at hs; simp only [Builtin.exec, expRead, h.content hs]
  | readAscii => simp [Builtin.safety] at hs; simp only [Builtin.exec, expReadAscii, h.content hs]
  | isArm => simp only [Builtin.exec, h.arm]
  | isThumb => simp only [Builtin.exec, h.thumb]
  | _ => rfl

def Args.ofValues : List Value → Args
  | [] => .nil
  | v :: vs => .cons (.ofValue v) (Args.ofValues vs)

theorem Args.ofValues_eval (H : Host) (F F' : Funcs) (c c' : Ctx) (vs : List Value) :
    (Args.ofValues vs).eval H F c = (Args.ofValues vs).eval H F' c' := by
  induction vs with
  | nil => rfl
  | cons v vs ih => simp only [Args.ofValues, Args.eval, ofValue_eval, ih]

section
variable (H : Host) (F₀ F : Funcs) (c₀ c : Ctx) (inBlock : Bool)
variable (hR : RegOk F₀) (hS : Stable inBlock c₀ c)

theorem fold_ok {e e' : Expr} {k ok : Bool} {m : List Diag} (h : Expr.fold H F₀ c₀ e k = .ok (e', ok) m) :
    ok = k ∧ (k = false → e' = e) ∧ (k = true → ∃ v, e' = .ofValue v ∧ (e.eval H F₀ c₀).val = some v) := by
  unfold Expr.fold at h
  cases k with
  | false => simp at h; exact ⟨h.1.2, fun _ => h.1.1.symm, by simp⟩
  | true =>
    simp only [if_true] at h
    obtain ⟨v, m₁, m₂, h1, h2, h3⟩ := Ev.bind_ok h
    simp at h2
    exact ⟨h2.1.2, by simp, fun _ => ⟨v, h2.1.1.symm, by rw [h1]; rfl⟩⟩

include hR hS in
mutual
theorem simplify_spec (e : Expr) (hk : e.Known F₀ F) (e' : Expr) (ok : Bool) (m : List Diag)
    (h : e.simplify H F₀ c₀ inBlock = .ok (e', ok) m) :
    (e'.eval H F c).val = (e.eval H F c).val ∧
      (ok = true → ∃ v, e' = .ofValue v ∧ (e.eval H F c).val = some v) := by
  cases e with
  | ident n f s => simp [Expr.simplify] at h; obtain ⟨⟨rfl, rfl⟩, -⟩ := h; simp
  | memoryPos => simp [Expr.simplify] at h; obtain ⟨⟨rfl, rfl⟩, -⟩ := h; simp
  | toString_ a => simp [Expr.simplify] at h; obtain ⟨⟨rfl, rfl⟩, -⟩ := h; simp
  | invalid =>
    simp [Expr.simplify, Expr.fold, Expr.eval] at h
    obtain ⟨⟨rfl, rfl⟩, -⟩ := h
    exact ⟨by simp [Expr.eval, Expr.ofValue], fun _ => ⟨.invalid, rfl, by simp [Expr.eval]⟩⟩
  | int v =>
    simp [Expr.simplify, Expr.fold, Expr.eval] at h
    obtain ⟨⟨rfl, rfl⟩, -⟩ := h
    exact ⟨by simp [Expr.eval, Expr.ofValue], fun _ => ⟨.int v, rfl, by simp [Expr.eval]⟩⟩
  | float v =>
    simp [Expr.simplify, Expr.fold, Expr.eval] at h
    obtain ⟨⟨rfl, rfl⟩, -⟩ := h
    exact ⟨by simp [Expr.eval, Expr.ofValue], fun _ => ⟨.float v, rfl, by simp [Expr.eval]⟩⟩
  | str v =>
    simp [Expr.simplify, Expr.fold, Expr.eval] at h
    obtain ⟨⟨rfl, rfl⟩, -⟩ := h
    exact ⟨by simp [Expr.eval, Expr.ofValue], fun _ => ⟨.str v, rfl, by simp [Expr.eval]⟩⟩
  | un op a =>
    simp only [Expr.simplify] at h
    obtain ⟨⟨a', k⟩, m₁, m₂, h1, h2, -⟩ := Ev.bind_ok h
    obtain ⟨i1, i2⟩ := simplify_spec a hk a' k m₁ h1
    obtain ⟨j0, j1, j2⟩ := fold_ok H F₀ c₀ h2
    cases k with
    | false => rw [j1 rfl, j0]; simp [Expr.eval, i1]
    | true =>
      obtain ⟨va, ea, hva⟩ := i2 rfl
      obtain ⟨v, ev, hv⟩ := j2 rfl
      subst ea ev
      simp only [Expr.eval, Ev.val_bind, ofValue_eval, Ev.val_ok, Option.bind_some] at hv
      refine ⟨?_, fun _ => ⟨v, rfl, ?_⟩⟩ <;> simp [Expr.eval, hva, ← hv]
  | bin op a b =>
    simp only [Expr.simplify] at h
    obtain ⟨⟨a', k⟩, m₁, m₂, h1, h2, -⟩ := Ev.bind_ok h
    obtain ⟨⟨b', k'⟩, m₃, m₄, h3, h4, -⟩ := Ev.bind_ok h2
    obtain ⟨i1, i2⟩ := simplify_spec a hk.1 a' k m₁ h1
    obtain ⟨i1', i2'⟩ := simplify_spec b hk.2 b' k' m₃ h3
    obtain ⟨j0, j1, j2⟩ := fold_ok H F₀ c₀ h4
    cases hkk : (k && k') with
    | false => rw [j1 hkk, j0, hkk]; simp [Expr.eval, i1, i1']
    | true =>
      simp only [Bool.and_eq_true] at hkk
      obtain ⟨va, ea, hva⟩ := i2 hkk.1
      obtain ⟨vb, eb, hvb⟩ := i2' hkk.2
      obtain ⟨v, ev, hv⟩ := j2 (by simp [hkk])
      subst ea eb ev
      simp only [Expr.eval, Ev.val_bind, ofValue_eval, Ev.val_ok, Option.bind_some] at hv
      refine ⟨?_, fun _ => ⟨v, rfl, ?_⟩⟩ <;> simp [Expr.eval, hva, hvb, ← hv]
  | cond a b d =>
    simp only [Expr.simplify] at h
    obtain ⟨⟨a', k⟩, m₁, m₂, h1, h2, -⟩ := Ev.bind_ok h
    obtain ⟨⟨b', k'⟩, m₃, m₄, h3, h4, -⟩ := Ev.bind_ok h2
    obtain ⟨⟨d', k''⟩, m₅, m₆, h5, h6, -⟩ := Ev.bind_ok h4
    obtain ⟨i1, i2⟩ := simplify_spec a hk.1 a' k m₁ h1
    obtain ⟨i1', i2'⟩ := simplify_spec b hk.2.1 b' k' m₃ h3
    obtain ⟨i1'', i2''⟩ := simplify_spec d hk.2.2 d' k'' m₅ h5
    obtain ⟨j0, j1, j2⟩ := fold_ok H F₀ c₀ h6
    have key : ∀ x, (if Value.eq H x (.int 0) then d'.eval H F c else b'.eval H F c).val =
        (if Value.eq H x (.int 0) then d.eval H F c else b.eval H F c).val := by
      intro x; split
      · exact i1''
      · exact i1'
    cases hkk : (k && k' && k'') with
    | false =>
      rw [j1 hkk, j0, hkk]; simp [Expr.eval, i1, key]
    | true =>
      simp only [Bool.and_eq_true] at hkk
      obtain ⟨va, ea, hva⟩ := i2 hkk.1.1
      obtain ⟨vb, eb, hvb⟩ := i2' hkk.1.2
      obtain ⟨vd, ed, hvd⟩ := i2'' hkk.2
      obtain ⟨v, ev, hv⟩ := j2 (by simp [hkk])
      subst ea eb ed ev
      simp only [Expr.eval, Ev.val_bind, ofValue_eval, Ev.val_ok, Option.bind_some] at hv
      have hv2 : (if Value.eq H va (.int 0) then d.eval H F c else b.eval H F c).val = some v := by
        rw [← hv]; split <;> simp [hvd, hvb]
      refine ⟨?_, fun _ => ⟨v, rfl, ?_⟩⟩ <;> simp [Expr.eval, hva, hv2]
  | call name args =>
    simp only [Expr.simplify] at h
    split at h
    · simp at h; obtain ⟨⟨rfl, rfl⟩, -⟩ := h; simp
    · rename_i hsafe
      obtain ⟨⟨args', k⟩, m₁, m₂, h1, h2, -⟩ := Ev.bind_ok h
      obtain ⟨i1, i2, i3⟩ := simplify_args_spec args hk.2 args' k m₁ h1
      obtain ⟨j0, j1, j2⟩ := fold_ok H F₀ c₀ h2
      obtain ⟨entry, hentry, hentry'⟩ := hk.1
      have hreg := hR _ _ hentry
      have hs : entry.safety = .safe ∨ (entry.safety = .conditionalUnsafe ∧ inBlock = false) := by
        simp [isFunctionSafe, hentry] at hsafe
        cases hsf : entry.safety with
        | safe => exact .inl rfl
        | conditionalUnsafe => simp [hsf] at hsafe; exact .inr ⟨rfl, hsafe⟩
        | unsafe_ => simp [hsf] at hsafe
      obtain ⟨kind, mn, mx, saf⟩ := entry
      cases kind with
      | label l => simp only at hreg hs; rw [hreg] at hs; simp at hs
      | user f => simp only at hreg hs; rw [hreg] at hs; simp at hs
      | builtin b =>
        simp only at hreg hs
        have hstab := exec_stable H b inBlock c₀ c hS (by rw [← hreg]; exact hs)
        have same : ((Expr.call name args').eval H F c).val = ((Expr.call name args).eval H F c).val := by
          simp only [Expr.eval, hentry', i2]
          split
          · rfl
          · split
            · rfl
            · simp only [Ev.val_bind, i1]
        cases hkk : k with
        | false => rw [j1 hkk, j0, hkk]; exact ⟨same, by simp⟩
        | true =>
          obtain ⟨vs, evs⟩ := i3 hkk
          obtain ⟨v, ev, hv⟩ := j2 hkk
          subst ev
          have hcc : ((Expr.call name args').eval H F c).val = some v := by
            rw [← hv]
            subst evs
            simp only [Expr.eval, hentry', hentry]
            split
            · rfl
            · split
              · rfl
              · rw [Args.ofValues_eval H F F₀ c c₀]
                simp only [Ev.val_bind]
                congr 1
                funext x
                cases x with
                | none => rfl
                | some vs => simp only [hstab]
          refine ⟨?_, fun _ => ⟨v, rfl, ?_⟩⟩
          · simp [← same, hcc]
          · rw [← same, hcc]

theorem simplify_args_spec (args : Args) (hk : args.Known F₀ F) (args' : Args) (ok : Bool) (m : List Diag)
    (h : args.simplify H F₀ c₀ inBlock = .ok (args', ok) m) :
    (args'.eval H F c).val = (args.eval H F c).val ∧ args'.length = args.length ∧
      (ok = true → ∃ vs, args' = Args.ofValues vs) := by
  cases args with
  | nil =>
    simp [Args.simplify] at h
    obtain ⟨⟨rfl, rfl⟩, -⟩ := h
    exact ⟨rfl, rfl, fun _ => ⟨[], rfl⟩⟩
  | cons e rest =>
    simp only [Args.simplify] at h
    obtain ⟨⟨e', k⟩, m₁, m₂, h1, h2, -⟩ := Ev.bind_ok h
    obtain ⟨⟨r', k'⟩, m₃, m₄, h3, h4, -⟩ := Ev.bind_ok h2
    obtain ⟨i1, i2⟩ := simplify_spec e hk.1 e' k m₁ h1
    obtain ⟨j1, j2, j3⟩ := simplify_args_spec rest hk.2 r' k' m₃ h3
    simp at h4
    obtain ⟨⟨rfl, rfl⟩, -⟩ := h4
    refine ⟨?_, by simp [Args.length, j2], ?_⟩
    · simp only [Args.eval, Ev.val_bind, i1]
      congr 1
      funext v
      split
      · rfl
      · simp only [Ev.val_bind, j1]
    · intro hkk
      simp only [Bool.and_eq_true] at hkk
      obtain ⟨v, ev, -⟩ := i2 hkk.1
      obtain ⟨vs, evs⟩ := j3 hkk.2
      exact ⟨v :: vs, by rw [ev, evs]; rfl⟩
end
end
end Armips
