import Verif.Props.FunctionRegistry
import Verif.Props.ExpressionFunctions
/-!
# Strings and function calls by name (C14, C51, C52, C61, C62)
-/
namespace Armips.Props
open Armips Registry

/-! ## Strings in expressions -/

/-- `s` comes before `t` in the order of strings: at the first difference `s` has the smaller byte, or `s` is a proper
prefix of `t`. -/
def Before (s t : Str) : Prop :=
  ∃ p : Str, (∃ x y u v, s = p ++ x :: u ∧ t = p ++ y :: v ∧ x.toNat < y.toNat) ∨ (∃ y v, s = p ∧ t = p ++ y :: v)

private theorem strLt_iff (s t : Str) : strLt s t = true ↔ Before s t := by
  induction s generalizing t with
  | nil =>
    cases t with
    | nil =>
      simp only [strLt, Bool.false_eq_true, false_iff]
      rintro ⟨p, ⟨x, y, u, v, h1, h2, h3⟩ | ⟨y, v, h1, h2⟩⟩ <;> simp at h1 h2
    | cons b bs => simp only [strLt, true_iff]; exact ⟨[], .inr ⟨b, bs, rfl, rfl⟩⟩
  | cons a as ih =>
    cases t with
    | nil =>
      simp only [strLt, Bool.false_eq_true, false_iff]
      rintro ⟨p, ⟨x, y, u, v, h1, h2, h3⟩ | ⟨y, v, h1, h2⟩⟩ <;> simp at h1 h2
    | cons b bs =>
      unfold strLt
      split
      · next h => simp only [true_iff]; exact ⟨[], .inl ⟨a, b, as, bs, rfl, rfl, h⟩⟩
      · split
        · next h h' =>
          simp only [Bool.false_eq_true, false_iff]
          rintro ⟨p, ⟨x, y, u, v, h1, h2, h3⟩ | ⟨y, v, h1, h2⟩⟩
          · cases p with
            | nil => simp at h1 h2; rw [← h1.1, ← h2.1] at h3; omega
            | cons q p => simp at h1 h2; rw [h1.1, h2.1] at h'; omega
          · cases p with
            | nil => simp at h1
            | cons q p => simp at h1 h2; rw [h1.1, h2.1] at h'; omega
        · next h h' =>
          have hab : a = b := BitVec.eq_of_toNat_eq (by omega)
          subst hab
          rw [ih]
          constructor
          · rintro ⟨p, ⟨x, y, u, v, rfl, rfl, h3⟩ | ⟨y, v, rfl, rfl⟩⟩
            · exact ⟨a :: p, .inl ⟨x, y, u, v, rfl, rfl, h3⟩⟩
            · exact ⟨a :: as, .inr ⟨y, v, rfl, rfl⟩⟩
          · rintro ⟨p, ⟨x, y, u, v, h1, h2, h3⟩ | ⟨y, v, h1, h2⟩⟩
            · cases p with
              | nil => simp at h1 h2; rw [← h1.1, ← h2.1] at h3; omega
              | cons q p => simp at h1 h2; exact ⟨p, .inl ⟨x, y, u, v, h1.2, h2.2, h3⟩⟩
            · cases p with
              | nil => simp at h1
              | cons q p => simp at h1 h2; exact ⟨p, .inr ⟨y, v, h1.2, h2.2⟩⟩

/-- The operators on strings: concatenation, equality of all bytes and the order of strings; every other operator with
two strings has an invalid value or 0. -/
theorem string_operators (H : Host) (F : Funcs) (c : Ctx) (s t : Str) :
    let ev := fun op => (Expr.bin op (.str s) (.str t)).eval H F c
    ev .add = .ok (.str (s ++ t)) [] ∧
    (∃ r : Int, ev .equal = .ok (.int r) [] ∧ (r = 1 ∨ r = 0) ∧ (r = 1 ↔ s = t)) ∧
    (∃ r : Int, ev .notEqual = .ok (.int r) [] ∧ (r = 1 ∨ r = 0) ∧ (r = 1 ↔ s ≠ t)) ∧
    (∃ r : Int, ev .less = .ok (.int r) [] ∧ (r = 1 ∨ r = 0) ∧ (r = 1 ↔ Before s t)) ∧
    (∃ r : Int, ev .greater = .ok (.int r) [] ∧ (r = 1 ∨ r = 0) ∧ (r = 1 ↔ Before t s)) ∧
    (∃ r : Int, ev .lessEqual = .ok (.int r) [] ∧ (r = 1 ∨ r = 0) ∧ (r = 1 ↔ ¬ Before t s)) ∧
    (∃ r : Int, ev .greaterEqual = .ok (.int r) [] ∧ (r = 1 ∨ r = 0) ∧ (r = 1 ↔ ¬ Before s t)) ∧
    (∀ op, op ∈ [BinOp.sub, .mult, .div, .mod, .leftShift, .rightShift, .bitAnd, .xor, .bitOr] → ev op = .ok .invalid []) ∧
    ev .logAnd = .ok (.int 0) [] ∧ ev .logOr = .ok (.int 0) [] := by
  have b2i : ∀ (b : Bool) (P : Prop), (b = true ↔ P) →
      ∃ r : Int, (Ev.ok (Value.ofBool b) [] : Ev Value) = .ok (.int r) [] ∧ (r = 1 ∨ r = 0) ∧ (r = 1 ↔ P) := by
    intro b P h
    cases b
    · exact ⟨0, rfl, .inr rfl, by simpa using h⟩
    · exact ⟨1, rfl, .inl rfl, by simpa using h⟩
  have hev : ∀ op, (Expr.bin op (.str s) (.str t)).eval H F c = op.apply H (.str s) (.str t) := by
    intro op
    simp only [Expr.eval, Ev.bind, pure, bind]
    cases h : op.apply H (.str s) (.str t) <;> simp
  simp only [hev]
  refine ⟨rfl, b2i _ _ ?_, b2i _ _ ?_, b2i _ _ ?_, b2i _ _ ?_, b2i _ _ ?_, b2i _ _ ?_, ?_, rfl, rfl⟩
  · simp [Value.eq]
  · simp [Value.eq]
  · simp [Value.lt, strLt_iff]
  · simp [Value.gt, Value.lt, strLt_iff]
  · simp [Value.le, ← strLt_iff]
  · simp [Value.ge, Value.le, ← strLt_iff]
  · intro op h
    simp only [List.mem_cons, List.not_mem_nil, or_false] at h
    rcases h with rfl | rfl | rfl | rfl | rfl | rfl | rfl | rfl | rfl <;> rfl

/-! ## Functions by name -/

/-- The documented functions with the least and greatest number of parameters (Readme, "Built-in functions"). -/
def documented : List (String × Nat × Nat) := [
  ("version", 0, 0), ("endianness", 0, 0), ("outputname", 0, 0), ("org", 0, 1), ("orga", 0, 1), ("headersize", 0, 1),
  ("defined", 1, 1), ("fileexists", 1, 1), ("filesize", 1, 1), ("tostring", 1, 1), ("tohex", 1, 2), ("int", 1, 1),
  ("float", 1, 1), ("frac", 1, 1), ("min", 1, 256), ("max", 1, 256), ("abs", 1, 1), ("round", 1, 1), ("strlen", 1, 1),
  ("substr", 3, 3), ("regex_match", 2, 2), ("regex_search", 2, 2), ("regex_extract", 2, 3), ("find", 2, 3), ("rfind", 2, 3),
  ("readbyte", 1, 2), ("readu8", 1, 2), ("readu16", 1, 2), ("readu32", 1, 2), ("readu64", 1, 2), ("reads8", 1, 2),
  ("reads16", 1, 2), ("reads32", 1, 2), ("reads64", 1, 2), ("readascii", 1, 3)]

/-- The parameter counts accepted are the documented ones, after every history of a run. -/
theorem documented_arities (ops : List Op) : ∀ d ∈ documented, ∃ e, (run ops).entries (lit d.1) = some e ∧
    e.minParams = d.2.1 ∧ e.maxParams = d.2.2 := by
  have key : ∀ d ∈ documented, (∃ f ∈ genericFunctions, f.1 = d.1 ∧ f.2.2 = d.2) ∨
      (∃ f ∈ labelFunctions, f.1 = d.1 ∧ f.2.2 = d.2) := by
    set_option maxRecDepth 10000 in decide +kernel
  intro d hd
  rcases key d hd with ⟨⟨n, b, lo, hi⟩, hm, h1, h2⟩ | ⟨⟨n, b, lo, hi⟩, hm, h1, h2⟩
  · simp only at h1 h2
    exact ⟨_, h1 ▸ (generic_functions_stay ops).1 n b lo hi hm, by rw [← h2], by rw [← h2]⟩
  · simp only at h1 h2
    exact ⟨_, h1 ▸ (generic_functions_stay ops).2 n b lo hi hm, by rw [← h2], by rw [← h2]⟩

/-- The reading functions: bytes read and whether the value is signed. -/
def readers : List (String × Nat × Bool) := [
  ("readbyte", 1, false), ("readu8", 1, false), ("readu16", 2, false), ("readu32", 4, false), ("readu64", 8, false),
  ("reads8", 1, true), ("reads16", 2, true), ("reads32", 4, true), ("reads64", 8, true)]

private theorem call_builtin (H : Host) (c : Ctx) (ops : List Op) (name : String) (b : Builtin) (lo hi : Nat)
    (hm : (name, b, lo, hi) ∈ genericFunctions) (args : Args) (vs : List Value)
    (hv : args.eval H (run ops).entries c = .ok (some vs) []) (h1 : lo ≤ args.length) (h2 : args.length ≤ hi) :
    (Expr.call (lit name) args).eval H (run ops).entries c = b.exec H c vs := by
  rw [Expr.eval, (generic_functions_stay ops).1 name b lo hi hm]
  simp only
  rw [if_neg (by omega), if_neg (by omega), hv]
  show Ev.bind _ _ = _
  simp only [Ev.bind]
  cases b.exec H c vs <;> simp

/-- C62. Calling a reading function by its name reads that many bytes with that signedness. -/
theorem readers_by_name (H : Host) (c : Ctx) (ops : List Op) (name : Str) (pos : Int) : ∀ r ∈ readers,
    (Expr.call (lit r.1) (.cons (.str name) (.cons (.int pos) .nil))).eval H (run ops).entries c =
      (Builtin.read r.2.1 r.2.2).exec H c [.str name, .int pos] := by
  intro r hr
  have key : ∀ r ∈ readers, (r.1, Builtin.read r.2.1 r.2.2, 1, 2) ∈ genericFunctions := by
    set_option maxRecDepth 10000 in decide +kernel
  exact call_builtin H c ops r.1 _ 1 2 (key r hr) _ _ (by with_unfolding_all rfl)
    (by simp [Args.length]) (by simp [Args.length])

/-- Names and meanings of the remaining functions with value parameters. -/
theorem functions_by_name (H : Host) (c : Ctx) (ops : List Op) (args : Args) (vs : List Value)
    (hv : args.eval H (run ops).entries c = .ok (some vs) []) : ∀ r ∈
    [("min", Builtin.min, 1, 256), ("max", .max, 1, 256), ("abs", .abs, 1, 1), ("strlen", .strlen, 1, 1),
     ("substr", .substr, 3, 3), ("find", .find, 2, 3), ("rfind", .rfind, 2, 3), ("round", .round, 1, 1), ("int", .int, 1, 1),
     ("float", .float, 1, 1), ("frac", .frac, 1, 1), ("tostring", .toString_, 1, 1), ("tohex", .toHex, 1, 2),
     ("fileexists", .fileExists, 1, 1), ("filesize", .fileSize, 1, 1), ("readascii", .readAscii, 1, 3)],
    r.2.2.1 ≤ args.length → args.length ≤ r.2.2.2 →
    (Expr.call (lit r.1) args).eval H (run ops).entries c = r.2.1.exec H c vs := by
  intro r hr h1 h2
  have key : ∀ r ∈ [("min", Builtin.min, 1, 256), ("max", .max, 1, 256), ("abs", .abs, 1, 1), ("strlen", .strlen, 1, 1),
     ("substr", .substr, 3, 3), ("find", .find, 2, 3), ("rfind", .rfind, 2, 3), ("round", .round, 1, 1), ("int", .int, 1, 1),
     ("float", .float, 1, 1), ("frac", .frac, 1, 1), ("tostring", .toString_, 1, 1), ("tohex", .toHex, 1, 2),
     ("fileexists", .fileExists, 1, 1), ("filesize", .fileSize, 1, 1), ("readascii", .readAscii, 1, 3)],
      (r.1, r.2.1, r.2.2.1, r.2.2.2) ∈ genericFunctions := by
    set_option maxRecDepth 10000 in decide +kernel
  exact call_builtin H c ops r.1 _ _ _ (key r hr) args vs hv h1 h2

/-- `abs` of an integer: its absolute value; -2^63 has none (signed overflow). -/
theorem abs_integer (H : Host) (c : Ctx) (v : Int) (hv : InI64 v) :
    (v ≠ -(2 ^ 63) → Builtin.abs.exec H c [.int v] = .ok (.int v.natAbs) []) ∧
    (v = -(2 ^ 63) → Builtin.abs.exec H c [.int v] = .ub) := by
  unfold InI64 at hv
  constructor
  · intro h
    simp only [Builtin.exec]
    split
    · next h0 => rw [Int.natAbs_of_nonneg h0]; rfl
    · next h0 =>
      rw [chk, if_pos (by unfold InI64; omega), show ((v.natAbs : Nat) : Int) = -v from by omega]; rfl
  · rintro rfl
    rfl

/-- `abs` of a float has the same magnitude and a positive sign; NaN stays NaN. -/
theorem abs_float (H : Host) (c : Ctx) (v : F64) : ∃ r : F64, Builtin.abs.exec H c [.float v] = .ok (.float r) [] ∧
    r.sign = false ∧ r.mag = v.mag := by
  refine ⟨_, rfl, ?_⟩
  have h : (v &&& 0x7FFFFFFFFFFFFFFF#64).toNat = v.toNat % 2 ^ 63 := by
    rw [BitVec.toNat_and, show (0x7FFFFFFFFFFFFFFF#64).toNat = 2 ^ 63 - 1 from rfl, Nat.and_two_pow_sub_one_eq_mod]
  unfold F64.sign F64.mag
  rw [h]
  exact ⟨decide_eq_false (by omega), Nat.mod_mod _ _⟩

/-- `strlen`, `filesize` and `fileexists`. -/
theorem sizes (H : Host) (c : Ctx) (s : Str) :
    Builtin.strlen.exec H c [.str s] = .ok (.int s.length) [] ∧
    (∀ d, c.readFile s = some d → Builtin.fileSize.exec H c [.str s] = .ok (.int d.length) [] ∧
      Builtin.fileExists.exec H c [.str s] = .ok (.int 1) []) ∧
    (c.readFile s = none → Builtin.fileSize.exec H c [.str s] = .ok (.int (-1)) [] ∧
      Builtin.fileExists.exec H c [.str s] = .ok (.int 0) []) := by
  refine ⟨rfl, fun d h => ?_, fun h => ?_⟩ <;> simp [Builtin.exec, paramStr, h, pure, Value.ofBool]

/-! ## C61: addresses -/

private theorem call_label (H : Host) (c : Ctx) (ops : List Op) (name : String) (l : LabelFn) (lo hi : Nat)
    (hm : (name, l, lo, hi) ∈ labelFunctions) (args : Args) (ls : List (Option Label))
    (hv : args.labels c = some ls) (h1 : lo ≤ args.length) (h2 : args.length ≤ hi) :
    (Expr.call (lit name) args).eval H (run ops).entries c = l.exec c ls := by
  rw [Expr.eval, (generic_functions_stay ops).2 name l lo hi hm]
  simp only
  rw [if_neg (by omega), if_neg (by omega), hv]

/-- Without a parameter, in an open file at memory address `v` with header size `h`: `org()` is `v`, `orga()` is the
position in the file, `v - h`, and `headersize()` is `h`. -/
theorem position_functions (H : Host) (c : Ctx) (ops : List Op) (v h : Int) (name : Str) (hf : c.file = some (v, h, name)) :
    let call := fun n => (Expr.call (lit n) .nil).eval H (run ops).entries c
    call "org" = .ok (.int v) [] ∧ call "orga" = .ok (.int (v - h)) [] ∧ call "headersize" = .ok (.int h) [] := by
  intro call
  refine ⟨?_, ?_, ?_⟩ <;> simp only [call]
  · rw [call_label H c ops "org" .org 0 1 (by decide +kernel) .nil [] rfl (by decide) (by decide)]; simp [LabelFn.exec, hf, pure]
  · rw [call_label H c ops "orga" .orga 0 1 (by decide +kernel) .nil [] rfl (by decide) (by decide)]
    simp [LabelFn.exec, hf, pure]
  · rw [call_label H c ops "headersize" .headerSize 0 1 (by decide +kernel) .nil [] rfl (by decide) (by decide)]
    simp [LabelFn.exec, hf, pure]

/-- With a label: `org` is its value, `orga` its position in the file, `headersize` the difference and `defined` tells
whether it has a definition. -/
theorem label_functions (H : Host) (c : Ctx) (ops : List Op) (n : Str) (f s : Int) (l : Label) (hl : c.label n f s = some l)
    (p : Int) (hp : l.physicalValue = some p) (hr : InI64 (l.value - p)) :
    let call := fun fn => (Expr.call (lit fn) (.cons (.ident n f s) .nil)).eval H (run ops).entries c
    call "org" = .ok (.int l.value) [] ∧ call "orga" = .ok (.int p) [] ∧
    call "headersize" = .ok (.int (l.value - p)) [] ∧
    call "defined" = .ok (.int (if l.defined then 1 else 0)) [] := by
  have hv : Args.labels c (.cons (.ident n f s) .nil) = some [some l] := by simp [Args.labels, hl]
  intro call
  refine ⟨?_, ?_, ?_, ?_⟩ <;> simp only [call]
  · rw [call_label H c ops "org" .org 0 1 (by decide +kernel) _ _ hv (by simp [Args.length]) (by simp [Args.length])]
    simp [LabelFn.exec, pure]
  · rw [call_label H c ops "orga" .orga 0 1 (by decide +kernel) _ _ hv (by simp [Args.length]) (by simp [Args.length])]
    simp [LabelFn.exec, hp, pure]
  · rw [call_label H c ops "headersize" .headerSize 0 1 (by decide +kernel) _ _ hv (by simp [Args.length]) (by simp [Args.length])]
    simp [LabelFn.exec, hp, pure, chk, hr]
  · rw [call_label H c ops "defined" .defined 1 1 (by decide +kernel) _ _ hv (by simp [Args.length]) (by simp [Args.length])]
    simp [LabelFn.exec, pure, Value.ofBool]

example : Before (lit "abc") (lit "abd") := ⟨lit "ab", .inl ⟨_, _, [], [], rfl, rfl, by decide⟩⟩
example : (Expr.call (lit "reads16") (.cons (.str (lit "f")) (.cons (.int 1) .nil))).eval exampleHost (run []).entries
    { exampleCtx with readFile := fun _ => some [1, 0xFE, 0xFF] } = .ok (.int (-2)) [] := by
  rw [readers_by_name _ _ [] _ _ ("reads16", 2, true) (by decide)]
  decide +kernel
end Armips.Props
