import Verif.Lemmas.FunctionRegistry
import Verif.Lemmas.Expression
/-!
# Properties of the function registry (C52)
-/
namespace Armips.Props
open Armips Registry

/-- After every history of `.expfunc` and architecture switches the generic functions are what the table says. -/
theorem generic_functions_stay (ops : List Op) :
    (∀ name b lo hi, (name, b, lo, hi) ∈ genericFunctions →
      (run ops).entries (lit name) = some ⟨.builtin b, lo, hi, b.safety⟩) ∧
    (∀ name l lo hi, (name, l, lo, hi) ∈ labelFunctions →
      (run ops).entries (lit name) = some ⟨.label l, lo, hi, .unsafe_⟩) := by
  constructor
  · intro name b lo hi h
    have h1 := genericEntry_row (name, b, lo, hi) h
    exact (inv_run ops).generic (lit name) _ h1
  · intro name b lo hi h
    have h1 := genericEntry_label (name, b, lo, hi) h
    exact (inv_run ops).generic (lit name) _ h1

/-- Registering a function under a name that is taken changes nothing; otherwise it adds exactly that function. -/
theorem register_never_overwrites (ops : List Op) (n : Str) (k : Nat) (f : Ctx → List Value → Ev Value) :
    (((run ops).entries n).isSome → run (ops ++ [.user n k f]) = run ops) ∧
    ((run ops).entries n = none →
      ∀ m, (run (ops ++ [.user n k f])).entries m =
        if m = n then some ⟨.user f, k, k, .unsafe_⟩ else (run ops).entries m) := by
  unfold run
  rw [List.foldl_append, List.foldl_cons, List.foldl_nil]
  generalize ops.foldl step (registerGeneric {}) = r
  constructor
  · intro h
    obtain ⟨e, he⟩ := Option.isSome_iff_exists.1 h
    simp [step, addUserFunction, registerEntry, he]
  · intro h m
    simp [step, addUserFunction, registerEntry, h]

/-- A callable function is generic, defined by a `.expfunc` of the history, or one of the architecture selected last. -/
theorem callable_functions (ops : List Op) (n : Str) (e : FuncEntry) (h : (run ops).entries n = some e) :
    (∃ name b lo hi, (name, b, lo, hi) ∈ genericFunctions ∧ n = lit name ∧ e = ⟨.builtin b, lo, hi, b.safety⟩) ∨
    (∃ name l lo hi, (name, l, lo, hi) ∈ labelFunctions ∧ n = lit name ∧ e = ⟨.label l, lo, hi, .unsafe_⟩) ∨
    (∃ k f, Op.user n k f ∈ ops ∧ e = ⟨.user f, k, k, .unsafe_⟩) ∨
    (∃ name b lo hi, (name, b, lo, hi) ∈ archFunctions (lastArch ops) ∧ n = lit name ∧
      e = ⟨.builtin b, lo, hi, b.safety⟩) := by
  rcases (inv_run ops).kinds n e h with hk | ⟨_, _, f, hk, hs⟩ | ⟨_, _, hk⟩
  · unfold genericEntry at hk
    rw [Option.or_eq_some_iff] at hk
    rcases hk with hk | ⟨_, hk⟩
    · simp only [Option.map_eq_some_iff] at hk
      obtain ⟨⟨name, b, lo, hi⟩, hf, rfl⟩ := hk
      have h1 := List.mem_of_find?_eq_some hf
      have h2 := List.find?_some hf
      exact .inl ⟨name, b, lo, hi, h1, by simpa using h2, rfl⟩
    · simp only [Option.map_eq_some_iff] at hk
      obtain ⟨⟨name, l, lo, hi⟩, hf, rfl⟩ := hk
      have h1 := List.mem_of_find?_eq_some hf
      have h2 := List.find?_some hf
      exact .inr (.inl ⟨name, l, lo, hi, h1, by simpa using h2, rfl⟩)
  · obtain ⟨k, h1, h2, h3⟩ := user_from_history ops n e f h hk
    refine .inr (.inr (.inl ⟨k, f, h1, ?_⟩))
    obtain ⟨kind, mn, mx, saf⟩ := e
    simp only at hk hs h2 h3
    rw [hk, hs, h2, h3]
  · unfold archEntry at hk
    simp only [Option.map_eq_some_iff] at hk
    obtain ⟨⟨name, b, lo, hi⟩, hf, rfl⟩ := hk
    have h1 := List.mem_of_find?_eq_some hf
    have h2 := List.find?_some hf
    exact .inr (.inr (.inr ⟨name, b, lo, hi, h1, by simpa using h2, rfl⟩))

/-- The functions of the architecture selected last are available, unless a `.expfunc` took the name. -/
theorem architecture_functions_available (ops : List Op) (name : String) (b : Builtin) (lo hi : Nat)
    (h : (name, b, lo, hi) ∈ archFunctions (lastArch ops)) (hu : ∀ k f, Op.user (lit name) k f ∉ ops) :
    (run ops).entries (lit name) = some ⟨.builtin b, lo, hi, b.safety⟩ := by
  have ha := archEntry_row _ _ h
  have hp := (inv_run ops).present (lit name) (by rw [ha.1]; rfl)
  obtain ⟨e, he⟩ := Option.isSome_iff_exists.1 hp
  rw [he]
  rcases (inv_run ops).kinds _ e he with hk | ⟨_, _, f, hk, hs⟩ | ⟨_, _, hk⟩
  · rw [ha.2] at hk; simp at hk
  · obtain ⟨k, h1, _⟩ := user_from_history ops _ e f he hk
    exact absurd h1 (hu k f)
  · rw [ha.1] at hk; exact hk.symm

/-- A call with too few or too many parameters has no value and queues an error, whatever the function is. -/
theorem argument_count_enforced (H : Host) (F : Funcs) (c : Ctx) (name : Str) (args : Args) (e : FuncEntry)
    (h : F name = some e) (hn : args.length < e.minParams ∨ e.maxParams < args.length) :
    ∃ text, (Expr.call name args).eval H F c = .ok .invalid [{ type := .error, text := text }] := by
  by_cases h1 : e.minParams > args.length
  · exact ⟨"Not enough parameters", by simp [Expr.eval, h, h1, Ev.queue]⟩
  · have h2 : e.maxParams < args.length := by omega
    exact ⟨"Too many parameters", by simp [Expr.eval, h, h1, h2, Ev.queue]⟩

/-- A call of a function that is not registered has no value and queues an error. -/
theorem unknown_function (H : Host) (F : Funcs) (c : Ctx) (name : Str) (args : Args) (h : F name = none) :
    ∃ text, (Expr.call name args).eval H F c = .ok .invalid [{ type := .error, text := text }] :=
  ⟨"Unknown function", by simp [Expr.eval, h, Ev.queue]⟩

/-- Switching from MIPS to ARM removes `lo` and adds `isarm`. -/
example : ((run [.arch .mips, .arch .arm]).entries (lit "lo")).isSome = false ∧
    ((run [.arch .mips, .arch .arm]).entries (lit "isarm")).isSome = true ∧
    ((run [.arch .mips]).entries (lit "lo")).isSome = true := by decide +kernel
example : ("lo", Builtin.lo, 1, 1) ∈ archFunctions (lastArch [.arch .arm, .user (lit "f") 0 (fun _ _ => .ub), .arch .mips]) := by
  decide +kernel
example : ∃ e, (run []).entries (lit "min") = some e ∧ Args.nil.length < e.minParams :=
  ⟨_, (generic_functions_stay []).1 "min" .min 1 256 (by decide), by decide⟩

end Armips.Props
