import Verif.Lemmas.Sh
/-! Every instruction of the manual is parsed as a row of the table that has its bits. -/
namespace Armips.Sh
open Spec Spec.Sh Spec.Instr

theorem parse_of {name : String} {ts : List Tok} {l : List Op} {r : Op × Operands} (h : (opcodes.filter fun op => op.name == name) = l)
    (h' : (l.findSome? fun op => (parseParams op ts).map fun o => (op, o)) = some r) : parseOpcode name ts = some r := by
  rw [parseOpcode, h, h']

set_option maxRecDepth 4000 in
set_option maxHeartbeats 1000000 in
theorem row_exists {x : Entry} (hx : x ∈ manual) (n m : Nat) (e : Expr) : ∃ op o, Row x n m e op o := by
  revert x
  simp only [manual, List.forall_mem_cons, List.not_mem_nil, false_implies, implies_true, and_true]
  refine ⟨?_, ?_, ?_, ?_, ?_, ?_, ?_, ?_, ?_, ?_, ?_, ?_, ?_, ?_, ?_, ?_, ?_, ?_, ?_, ?_, ?_, ?_, ?_, ?_, ?_, ?_, ?_,
    ?_, ?_, ?_, ?_, ?_, ?_, ?_, ?_, ?_, ?_, ?_, ?_, ?_, ?_, ?_, ?_, ?_, ?_, ?_, ?_, ?_, ?_, ?_, ?_, ?_, ?_, ?_,
    ?_, ?_, ?_, ?_, ?_, ?_, ?_, ?_, ?_, ?_, ?_, ?_, ?_, ?_, ?_, ?_, ?_, ?_, ?_, ?_, ?_, ?_, ?_, ?_, ?_, ?_, ?_,
    ?_, ?_, ?_, ?_, ?_, ?_, ?_, ?_, ?_, ?_, ?_, ?_, ?_, ?_, ?_, ?_, ?_, ?_, ?_, ?_, ?_, ?_, ?_, ?_, ?_, ?_, ?_,
    ?_, ?_, ?_, ?_, ?_, ?_, ?_, ?_, ?_, ?_, ?_, ?_, ?_, ?_, ?_, ?_, ?_, ?_, ?_, ?_, ?_, ?_, ?_, ?_, ?_, ?_, ?_,
    ?_, ?_, ?_, ?_, ?_, ?_, ?_, ?_, ?_, ?_⟩
  · exact ⟨⟨"mov", "#i8,t", 0b1110000000000000#16, .ni, false, []⟩,
      ⟨15, n, 8, e⟩, parse_of (l := [⟨"mov", "#i8,t", 0b1110000000000000#16, .ni, false, []⟩, ⟨"mov", "i8,t", 0b1110000000000000#16, .ni, false, []⟩, ⟨"mov", "s,t", 0b0110000000000011#16, .nm, false, []⟩]) (by decide +kernel) (by rcases n with _ | n <;> rfl), rfl, rfl, ⟨rfl, rfl⟩, fun _ => rfl, fun _ => rfl⟩
  · exact ⟨⟨"mov.w", "i8,t", 0b1001000000000000#16, .nd8, false, [.imm16, .immrel]⟩,
      ⟨15, n, 8, e⟩, parse_of (l := [⟨"mov.w", "i8,t", 0b1001000000000000#16, .nd8, false, [.imm16, .immrel]⟩, ⟨"mov.w", "@(i8,pc),t", 0b1001000000000000#16, .nd8, false, [.freg, .imm16, .pcrelmanual]⟩, ⟨"mov.w", "s,@t", 0b0010000000000001#16, .nm, false, []⟩, ⟨"mov.w", "@s,t", 0b0110000000000001#16, .nm, false, []⟩, ⟨"mov.w", "s,@-t", 0b0010000000000101#16, .nm, false, []⟩, ⟨"mov.w", "@s+,t", 0b0110000000000101#16, .nm, false, []⟩, ⟨"mov.w", "r0,@(i4,t)", 0b1000000100000000#16, .nd4, false, [.imm16, .freg]⟩, ⟨"mov.w", "@(i4,t),r0", 0b1000010100000000#16, .nd4, false, [.imm16, .freg]⟩, ⟨"mov.w", "s,@(r0,t)", 0b0000000000000101#16, .nm, false, [.freg]⟩, ⟨"mov.w", "@(r0,s),t", 0b0000000000001101#16, .nm, false, [.freg]⟩, ⟨"mov.w", "r0,@(i8,gbr)", 0b1100000100000000#16, .d, false, [.imm16, .freg]⟩, ⟨"mov.w", "@(i8,gbr),r0", 0b1100010100000000#16, .d, false, [.imm16, .freg]⟩]) (by decide +kernel) (by rcases n with _ | n <;> rfl), rfl, rfl, ⟨rfl, rfl⟩, fun _ => rfl, fun _ => rfl⟩
  · exact ⟨⟨"mov.l", "i8,t", 0b1101000000000000#16, .nd8, false, [.imm32, .immrel]⟩,
      ⟨15, n, 8, e⟩, parse_of (l := [⟨"mov.l", "i8,t", 0b1101000000000000#16, .nd8, false, [.imm32, .immrel]⟩, ⟨"mov.l", "@(i8,pc),t", 0b1101000000000000#16, .nd8, false, [.freg, .imm32, .pcrelmanual]⟩, ⟨"mov.l", "s,@t", 0b0010000000000010#16, .nm, false, []⟩, ⟨"mov.l", "@s,t", 0b0110000000000010#16, .nm, false, []⟩, ⟨"mov.l", "s,@-t", 0b0010000000000110#16, .nm, false, []⟩, ⟨"mov.l", "@s+,t", 0b0110000000000110#16, .nm, false, []⟩, ⟨"mov.l", "s,@(i4,t)", 0b0001000000000000#16, .nmd, false, [.imm32, .freg]⟩, ⟨"mov.l", "@(i4,s),t", 0b0101000000000000#16, .nmd, false, [.imm32, .freg]⟩, ⟨"mov.l", "s,@(r0,t)", 0b0000000000000110#16, .nm, false, [.freg]⟩, ⟨"mov.l", "@(r0,s),t", 0b0000000000001110#16, .nm, false, [.freg]⟩, ⟨"mov.l", "r0,@(i8,gbr)", 0b1100001000000000#16, .d, false, [.imm32, .freg]⟩, ⟨"mov.l", "@(i8,gbr),r0", 0b1100011000000000#16, .d, false, [.imm32, .freg]⟩]) (by decide +kernel) (by rcases n with _ | n <;> rfl), rfl, rfl, ⟨rfl, rfl⟩, fun _ => rfl, fun _ => rfl⟩
  · exact ⟨⟨"mov.w", "@(i8,pc),t", 0b1001000000000000#16, .nd8, false, [.freg, .imm16, .pcrelmanual]⟩,
      ⟨15, n, 8, e⟩, parse_of (l := [⟨"mov.w", "i8,t", 0b1001000000000000#16, .nd8, false, [.imm16, .immrel]⟩, ⟨"mov.w", "@(i8,pc),t", 0b1001000000000000#16, .nd8, false, [.freg, .imm16, .pcrelmanual]⟩, ⟨"mov.w", "s,@t", 0b0010000000000001#16, .nm, false, []⟩, ⟨"mov.w", "@s,t", 0b0110000000000001#16, .nm, false, []⟩, ⟨"mov.w", "s,@-t", 0b0010000000000101#16, .nm, false, []⟩, ⟨"mov.w", "@s+,t", 0b0110000000000101#16, .nm, false, []⟩, ⟨"mov.w", "r0,@(i4,t)", 0b1000000100000000#16, .nd4, false, [.imm16, .freg]⟩, ⟨"mov.w", "@(i4,t),r0", 0b1000010100000000#16, .nd4, false, [.imm16, .freg]⟩, ⟨"mov.w", "s,@(r0,t)", 0b0000000000000101#16, .nm, false, [.freg]⟩, ⟨"mov.w", "@(r0,s),t", 0b0000000000001101#16, .nm, false, [.freg]⟩, ⟨"mov.w", "r0,@(i8,gbr)", 0b1100000100000000#16, .d, false, [.imm16, .freg]⟩, ⟨"mov.w", "@(i8,gbr),r0", 0b1100010100000000#16, .d, false, [.imm16, .freg]⟩]) (by decide +kernel) (by rcases n with _ | n <;> rfl), rfl, rfl, ⟨rfl, rfl⟩, fun _ => rfl, fun _ => rfl⟩
  · exact ⟨⟨"mov.l", "@(i8,pc),t", 0b1101000000000000#16, .nd8, false, [.freg, .imm32, .pcrelmanual]⟩,
      ⟨15, n, 8, e⟩, parse_of (l := [⟨"mov.l", "i8,t", 0b1101000000000000#16, .nd8, false, [.imm32, .immrel]⟩, ⟨"mov.l", "@(i8,pc),t", 0b1101000000000000#16, .nd8, false, [.freg, .imm32, .pcrelmanual]⟩, ⟨"mov.l", "s,@t", 0b0010000000000010#16, .nm, false, []⟩, ⟨"mov.l", "@s,t", 0b0110000000000010#16, .nm, false, []⟩, ⟨"mov.l", "s,@-t", 0b0010000000000110#16, .nm, false, []⟩, ⟨"mov.l", "@s+,t", 0b0110000000000110#16, .nm, false, []⟩, ⟨"mov.l", "s,@(i4,t)", 0b0001000000000000#16, .nmd, false, [.imm32, .freg]⟩, ⟨"mov.l", "@(i4,s),t", 0b0101000000000000#16, .nmd, false, [.imm32, .freg]⟩, ⟨"mov.l", "s,@(r0,t)", 0b0000000000000110#16, .nm, false, [.freg]⟩, ⟨"mov.l", "@(r0,s),t", 0b0000000000001110#16, .nm, false, [.freg]⟩, ⟨"mov.l", "r0,@(i8,gbr)", 0b1100001000000000#16, .d, false, [.imm32, .freg]⟩, ⟨"mov.l", "@(i8,gbr),r0", 0b1100011000000000#16, .d, false, [.imm32, .freg]⟩]) (by decide +kernel) (by rcases n with _ | n <;> rfl), rfl, rfl, ⟨rfl, rfl⟩, fun _ => rfl, fun _ => rfl⟩
  · exact ⟨⟨"mov", "s,t", 0b0110000000000011#16, .nm, false, []⟩,
      ⟨m, n, 0, .int 0⟩, parse_of (l := [⟨"mov", "#i8,t", 0b1110000000000000#16, .ni, false, []⟩, ⟨"mov", "i8,t", 0b1110000000000000#16, .ni, false, []⟩, ⟨"mov", "s,t", 0b0110000000000011#16, .nm, false, []⟩]) (by decide +kernel) (by rcases n with _ | n <;> rcases m with _ | m <;> rfl), rfl, rfl, ⟨rfl, rfl⟩, fun h => absurd rfl h, fun _ => rfl⟩
  · exact ⟨⟨"mov.b", "s,@t", 0b0010000000000000#16, .nm, false, []⟩,
      ⟨m, n, 0, .int 0⟩, parse_of (l := [⟨"mov.b", "s,@t", 0b0010000000000000#16, .nm, false, []⟩, ⟨"mov.b", "@s,t", 0b0110000000000000#16, .nm, false, []⟩, ⟨"mov.b", "s,@-t", 0b0010000000000100#16, .nm, false, []⟩, ⟨"mov.b", "@s+,t", 0b0110000000000100#16, .nm, false, []⟩, ⟨"mov.b", "r0,@(i4,t)", 0b1000000000000000#16, .nd4, false, [.freg]⟩, ⟨"mov.b", "@(i4,t),r0", 0b1000010000000000#16, .nd4, false, [.freg]⟩, ⟨"mov.b", "s,@(r0,t)", 0b0000000000000100#16, .nm, false, [.freg]⟩, ⟨"mov.b", "@(r0,s),t", 0b0000000000001100#16, .nm, false, [.freg]⟩, ⟨"mov.b", "r0,@(i8,gbr)", 0b1100000000000000#16, .d, false, [.freg]⟩, ⟨"mov.b", "@(i8,gbr),r0", 0b1100010000000000#16, .d, false, [.freg]⟩]) (by decide +kernel) (by rcases n with _ | n <;> rcases m with _ | m <;> rfl), rfl, rfl, ⟨rfl, rfl⟩, fun h => absurd rfl h, fun _ => rfl⟩
  · exact ⟨⟨"mov.w", "s,@t", 0b0010000000000001#16, .nm, false, []⟩,
      ⟨m, n, 0, .int 0⟩, parse_of (l := [⟨"mov.w", "i8,t", 0b1001000000000000#16, .nd8, false, [.imm16, .immrel]⟩, ⟨"mov.w", "@(i8,pc),t", 0b1001000000000000#16, .nd8, false, [.freg, .imm16, .pcrelmanual]⟩, ⟨"mov.w", "s,@t", 0b0010000000000001#16, .nm, false, []⟩, ⟨"mov.w", "@s,t", 0b0110000000000001#16, .nm, false, []⟩, ⟨"mov.w", "s,@-t", 0b0010000000000101#16, .nm, false, []⟩, ⟨"mov.w", "@s+,t", 0b0110000000000101#16, .nm, false, []⟩, ⟨"mov.w", "r0,@(i4,t)", 0b1000000100000000#16, .nd4, false, [.imm16, .freg]⟩, ⟨"mov.w", "@(i4,t),r0", 0b1000010100000000#16, .nd4, false, [.imm16, .freg]⟩, ⟨"mov.w", "s,@(r0,t)", 0b0000000000000101#16, .nm, false, [.freg]⟩, ⟨"mov.w", "@(r0,s),t", 0b0000000000001101#16, .nm, false, [.freg]⟩, ⟨"mov.w", "r0,@(i8,gbr)", 0b1100000100000000#16, .d, false, [.imm16, .freg]⟩, ⟨"mov.w", "@(i8,gbr),r0", 0b1100010100000000#16, .d, false, [.imm16, .freg]⟩]) (by decide +kernel) (by rcases n with _ | n <;> rcases m with _ | m <;> rfl), rfl, rfl, ⟨rfl, rfl⟩, fun h => absurd rfl h, fun _ => rfl⟩
  · exact ⟨⟨"mov.l", "s,@t", 0b0010000000000010#16, .nm, false, []⟩,
      ⟨m, n, 0, .int 0⟩, parse_of (l := [⟨"mov.l", "i8,t", 0b1101000000000000#16, .nd8, false, [.imm32, .immrel]⟩, ⟨"mov.l", "@(i8,pc),t", 0b1101000000000000#16, .nd8, false, [.freg, .imm32, .pcrelmanual]⟩, ⟨"mov.l", "s,@t", 0b0010000000000010#16, .nm, false, []⟩, ⟨"mov.l", "@s,t", 0b0110000000000010#16, .nm, false, []⟩, ⟨"mov.l", "s,@-t", 0b0010000000000110#16, .nm, false, []⟩, ⟨"mov.l", "@s+,t", 0b0110000000000110#16, .nm, false, []⟩, ⟨"mov.l", "s,@(i4,t)", 0b0001000000000000#16, .nmd, false, [.imm32, .freg]⟩, ⟨"mov.l", "@(i4,s),t", 0b0101000000000000#16, .nmd, false, [.imm32, .freg]⟩, ⟨"mov.l", "s,@(r0,t)", 0b0000000000000110#16, .nm, false, [.freg]⟩, ⟨"mov.l", "@(r0,s),t", 0b0000000000001110#16, .nm, false, [.freg]⟩, ⟨"mov.l", "r0,@(i8,gbr)", 0b1100001000000000#16, .d, false, [.imm32, .freg]⟩, ⟨"mov.l", "@(i8,gbr),r0", 0b1100011000000000#16, .d, false, [.imm32, .freg]⟩]) (by decide +kernel) (by rcases n with _ | n <;> rcases m with _ | m <;> rfl), rfl, rfl, ⟨rfl, rfl⟩, fun h => absurd rfl h, fun _ => rfl⟩
  · exact ⟨⟨"mov.b", "@s,t", 0b0110000000000000#16, .nm, false, []⟩,
      ⟨m, n, 0, .int 0⟩, parse_of (l := [⟨"mov.b", "s,@t", 0b0010000000000000#16, .nm, false, []⟩, ⟨"mov.b", "@s,t", 0b0110000000000000#16, .nm, false, []⟩, ⟨"mov.b", "s,@-t", 0b0010000000000100#16, .nm, false, []⟩, ⟨"mov.b", "@s+,t", 0b0110000000000100#16, .nm, false, []⟩, ⟨"mov.b", "r0,@(i4,t)", 0b1000000000000000#16, .nd4, false, [.freg]⟩, ⟨"mov.b", "@(i4,t),r0", 0b1000010000000000#16, .nd4, false, [.freg]⟩, ⟨"mov.b", "s,@(r0,t)", 0b0000000000000100#16, .nm, false, [.freg]⟩, ⟨"mov.b", "@(r0,s),t", 0b0000000000001100#16, .nm, false, [.freg]⟩, ⟨"mov.b", "r0,@(i8,gbr)", 0b1100000000000000#16, .d, false, [.freg]⟩, ⟨"mov.b", "@(i8,gbr),r0", 0b1100010000000000#16, .d, false, [.freg]⟩]) (by decide +kernel) (by rcases n with _ | n <;> rcases m with _ | m <;> rfl), rfl, rfl, ⟨rfl, rfl⟩, fun h => absurd rfl h, fun _ => rfl⟩
  · exact ⟨⟨"mov.w", "@s,t", 0b0110000000000001#16, .nm, false, []⟩,
      ⟨m, n, 0, .int 0⟩, parse_of (l := [⟨"mov.w", "i8,t", 0b1001000000000000#16, .nd8, false, [.imm16, .immrel]⟩, ⟨"mov.w", "@(i8,pc),t", 0b1001000000000000#16, .nd8, false, [.freg, .imm16, .pcrelmanual]⟩, ⟨"mov.w", "s,@t", 0b0010000000000001#16, .nm, false, []⟩, ⟨"mov.w", "@s,t", 0b0110000000000001#16, .nm, false, []⟩, ⟨"mov.w", "s,@-t", 0b0010000000000101#16, .nm, false, []⟩, ⟨"mov.w", "@s+,t", 0b0110000000000101#16, .nm, false, []⟩, ⟨"mov.w", "r0,@(i4,t)", 0b1000000100000000#16, .nd4, false, [.imm16, .freg]⟩, ⟨"mov.w", "@(i4,t),r0", 0b1000010100000000#16, .nd4, false, [.imm16, .freg]⟩, ⟨"mov.w", "s,@(r0,t)", 0b0000000000000101#16, .nm, false, [.freg]⟩, ⟨"mov.w", "@(r0,s),t", 0b0000000000001101#16, .nm, false, [.freg]⟩, ⟨"mov.w", "r0,@(i8,gbr)", 0b1100000100000000#16, .d, false, [.imm16, .freg]⟩, ⟨"mov.w", "@(i8,gbr),r0", 0b1100010100000000#16, .d, false, [.imm16, .freg]⟩]) (by decide +kernel) (by rcases n with _ | n <;> rcases m with _ | m <;> rfl), rfl, rfl, ⟨rfl, rfl⟩, fun h => absurd rfl h, fun _ => rfl⟩
  · exact ⟨⟨"mov.l", "@s,t", 0b0110000000000010#16, .nm, false, []⟩,
      ⟨m, n, 0, .int 0⟩, parse_of (l := [⟨"mov.l", "i8,t", 0b1101000000000000#16, .nd8, false, [.imm32, .immrel]⟩, ⟨"mov.l", "@(i8,pc),t", 0b1101000000000000#16, .nd8, false, [.freg, .imm32, .pcrelmanual]⟩, ⟨"mov.l", "s,@t", 0b0010000000000010#16, .nm, false, []⟩, ⟨"mov.l", "@s,t", 0b0110000000000010#16, .nm, false, []⟩, ⟨"mov.l", "s,@-t", 0b0010000000000110#16, .nm, false, []⟩, ⟨"mov.l", "@s+,t", 0b0110000000000110#16, .nm, false, []⟩, ⟨"mov.l", "s,@(i4,t)", 0b0001000000000000#16, .nmd, false, [.imm32, .freg]⟩, ⟨"mov.l", "@(i4,s),t", 0b0101000000000000#16, .nmd, false, [.imm32, .freg]⟩, ⟨"mov.l", "s,@(r0,t)", 0b0000000000000110#16, .nm, false, [.freg]⟩, ⟨"mov.l", "@(r0,s),t", 0b0000000000001110#16, .nm, false, [.freg]⟩, ⟨"mov.l", "r0,@(i8,gbr)", 0b1100001000000000#16, .d, false, [.imm32, .freg]⟩, ⟨"mov.l", "@(i8,gbr),r0", 0b1100011000000000#16, .d, false, [.imm32, .freg]⟩]) (by decide +kernel) (by rcases n with _ | n <;> rcases m with _ | m <;> rfl), rfl, rfl, ⟨rfl, rfl⟩, fun h => absurd rfl h, fun _ => rfl⟩
  · exact ⟨⟨"mov.b", "s,@-t", 0b0010000000000100#16, .nm, false, []⟩,
      ⟨m, n, 0, .int 0⟩, parse_of (l := [⟨"mov.b", "s,@t", 0b0010000000000000#16, .nm, false, []⟩, ⟨"mov.b", "@s,t", 0b0110000000000000#16, .nm, false, []⟩, ⟨"mov.b", "s,@-t", 0b0010000000000100#16, .nm, false, []⟩, ⟨"mov.b", "@s+,t", 0b0110000000000100#16, .nm, false, []⟩, ⟨"mov.b", "r0,@(i4,t)", 0b1000000000000000#16, .nd4, false, [.freg]⟩, ⟨"mov.b", "@(i4,t),r0", 0b1000010000000000#16, .nd4, false, [.freg]⟩, ⟨"mov.b", "s,@(r0,t)", 0b0000000000000100#16, .nm, false, [.freg]⟩, ⟨"mov.b", "@(r0,s),t", 0b0000000000001100#16, .nm, false, [.freg]⟩, ⟨"mov.b", "r0,@(i8,gbr)", 0b1100000000000000#16, .d, false, [.freg]⟩, ⟨"mov.b", "@(i8,gbr),r0", 0b1100010000000000#16, .d, false, [.freg]⟩]) (by decide +kernel) (by rcases n with _ | n <;> rcases m with _ | m <;> rfl), rfl, rfl, ⟨rfl, rfl⟩, fun h => absurd rfl h, fun _ => rfl⟩
  · exact ⟨⟨"mov.w", "s,@-t", 0b0010000000000101#16, .nm, false, []⟩,
      ⟨m, n, 0, .int 0⟩, parse_of (l := [⟨"mov.w", "i8,t", 0b1001000000000000#16, .nd8, false, [.imm16, .immrel]⟩, ⟨"mov.w", "@(i8,pc),t", 0b1001000000000000#16, .nd8, false, [.freg, .imm16, .pcrelmanual]⟩, ⟨"mov.w", "s,@t", 0b0010000000000001#16, .nm, false, []⟩, ⟨"mov.w", "@s,t", 0b0110000000000001#16, .nm, false, []⟩, ⟨"mov.w", "s,@-t", 0b0010000000000101#16, .nm, false, []⟩, ⟨"mov.w", "@s+,t", 0b0110000000000101#16, .nm, false, []⟩, ⟨"mov.w", "r0,@(i4,t)", 0b1000000100000000#16, .nd4, false, [.imm16, .freg]⟩, ⟨"mov.w", "@(i4,t),r0", 0b1000010100000000#16, .nd4, false, [.imm16, .freg]⟩, ⟨"mov.w", "s,@(r0,t)", 0b0000000000000101#16, .nm, false, [.freg]⟩, ⟨"mov.w", "@(r0,s),t", 0b0000000000001101#16, .nm, false, [.freg]⟩, ⟨"mov.w", "r0,@(i8,gbr)", 0b1100000100000000#16, .d, false, [.imm16, .freg]⟩, ⟨"mov.w", "@(i8,gbr),r0", 0b1100010100000000#16, .d, false, [.imm16, .freg]⟩]) (by decide +kernel) (by rcases n with _ | n <;> rcases m with _ | m <;> rfl), rfl, rfl, ⟨rfl, rfl⟩, fun h => absurd rfl h, fun _ => rfl⟩
  · exact ⟨⟨"mov.l", "s,@-t", 0b0010000000000110#16, .nm, false, []⟩,
      ⟨m, n, 0, .int 0⟩, parse_of (l := [⟨"mov.l", "i8,t", 0b1101000000000000#16, .nd8, false, [.imm32, .immrel]⟩, ⟨"mov.l", "@(i8,pc),t", 0b1101000000000000#16, .nd8, false, [.freg, .imm32, .pcrelmanual]⟩, ⟨"mov.l", "s,@t", 0b0010000000000010#16, .nm, false, []⟩, ⟨"mov.l", "@s,t", 0b0110000000000010#16, .nm, false, []⟩, ⟨"mov.l", "s,@-t", 0b0010000000000110#16, .nm, false, []⟩, ⟨"mov.l", "@s+,t", 0b0110000000000110#16, .nm, false, []⟩, ⟨"mov.l", "s,@(i4,t)", 0b0001000000000000#16, .nmd, false, [.imm32, .freg]⟩, ⟨"mov.l", "@(i4,s),t", 0b0101000000000000#16, .nmd, false, [.imm32, .freg]⟩, ⟨"mov.l", "s,@(r0,t)", 0b0000000000000110#16, .nm, false, [.freg]⟩, ⟨"mov.l", "@(r0,s),t", 0b0000000000001110#16, .nm, false, [.freg]⟩, ⟨"mov.l", "r0,@(i8,gbr)", 0b1100001000000000#16, .d, false, [.imm32, .freg]⟩, ⟨"mov.l", "@(i8,gbr),r0", 0b1100011000000000#16, .d, false, [.imm32, .freg]⟩]) (by decide +kernel) (by rcases n with _ | n <;> rcases m with _ | m <;> rfl), rfl, rfl, ⟨rfl, rfl⟩, fun h => absurd rfl h, fun _ => rfl⟩
  · exact ⟨⟨"mov.b", "@s+,t", 0b0110000000000100#16, .nm, false, []⟩,
      ⟨m, n, 0, .int 0⟩, parse_of (l := [⟨"mov.b", "s,@t", 0b0010000000000000#16, .nm, false, []⟩, ⟨"mov.b", "@s,t", 0b0110000000000000#16, .nm, false, []⟩, ⟨"mov.b", "s,@-t", 0b0010000000000100#16, .nm, false, []⟩, ⟨"mov.b", "@s+,t", 0b0110000000000100#16, .nm, false, []⟩, ⟨"mov.b", "r0,@(i4,t)", 0b1000000000000000#16, .nd4, false, [.freg]⟩, ⟨"mov.b", "@(i4,t),r0", 0b1000010000000000#16, .nd4, false, [.freg]⟩, ⟨"mov.b", "s,@(r0,t)", 0b0000000000000100#16, .nm, false, [.freg]⟩, ⟨"mov.b", "@(r0,s),t", 0b0000000000001100#16, .nm, false, [.freg]⟩, ⟨"mov.b", "r0,@(i8,gbr)", 0b1100000000000000#16, .d, false, [.freg]⟩, ⟨"mov.b", "@(i8,gbr),r0", 0b1100010000000000#16, .d, false, [.freg]⟩]) (by decide +kernel) (by rcases n with _ | n <;> rcases m with _ | m <;> rfl), rfl, rfl, ⟨rfl, rfl⟩, fun h => absurd rfl h, fun _ => rfl⟩
  · exact ⟨⟨"mov.w", "@s+,t", 0b0110000000000101#16, .nm, false, []⟩,
      ⟨m, n, 0, .int 0⟩, parse_of (l := [⟨"mov.w", "i8,t", 0b1001000000000000#16, .nd8, false, [.imm16, .immrel]⟩, ⟨"mov.w", "@(i8,pc),t", 0b1001000000000000#16, .nd8, false, [.freg, .imm16, .pcrelmanual]⟩, ⟨"mov.w", "s,@t", 0b0010000000000001#16, .nm, false, []⟩, ⟨"mov.w", "@s,t", 0b0110000000000001#16, .nm, false, []⟩, ⟨"mov.w", "s,@-t", 0b0010000000000101#16, .nm, false, []⟩, ⟨"mov.w", "@s+,t", 0b0110000000000101#16, .nm, false, []⟩, ⟨"mov.w", "r0,@(i4,t)", 0b1000000100000000#16, .nd4, false, [.imm16, .freg]⟩, ⟨"mov.w", "@(i4,t),r0", 0b1000010100000000#16, .nd4, false, [.imm16, .freg]⟩, ⟨"mov.w", "s,@(r0,t)", 0b0000000000000101#16, .nm, false, [.freg]⟩, ⟨"mov.w", "@(r0,s),t", 0b0000000000001101#16, .nm, false, [.freg]⟩, ⟨"mov.w", "r0,@(i8,gbr)", 0b1100000100000000#16, .d, false, [.imm16, .freg]⟩, ⟨"mov.w", "@(i8,gbr),r0", 0b1100010100000000#16, .d, false, [.imm16, .freg]⟩]) (by decide +kernel) (by rcases n with _ | n <;> rcases m with _ | m <;> rfl), rfl, rfl, ⟨rfl, rfl⟩, fun h => absurd rfl h, fun _ => rfl⟩
  · exact ⟨⟨"mov.l", "@s+,t", 0b0110000000000110#16, .nm, false, []⟩,
      ⟨m, n, 0, .int 0⟩, parse_of (l := [⟨"mov.l", "i8,t", 0b1101000000000000#16, .nd8, false, [.imm32, .immrel]⟩, ⟨"mov.l", "@(i8,pc),t", 0b1101000000000000#16, .nd8, false, [.freg, .imm32, .pcrelmanual]⟩, ⟨"mov.l", "s,@t", 0b0010000000000010#16, .nm, false, []⟩, ⟨"mov.l", "@s,t", 0b0110000000000010#16, .nm, false, []⟩, ⟨"mov.l", "s,@-t", 0b0010000000000110#16, .nm, false, []⟩, ⟨"mov.l", "@s+,t", 0b0110000000000110#16, .nm, false, []⟩, ⟨"mov.l", "s,@(i4,t)", 0b0001000000000000#16, .nmd, false, [.imm32, .freg]⟩, ⟨"mov.l", "@(i4,s),t", 0b0101000000000000#16, .nmd, false, [.imm32, .freg]⟩, ⟨"mov.l", "s,@(r0,t)", 0b0000000000000110#16, .nm, false, [.freg]⟩, ⟨"mov.l", "@(r0,s),t", 0b0000000000001110#16, .nm, false, [.freg]⟩, ⟨"mov.l", "r0,@(i8,gbr)", 0b1100001000000000#16, .d, false, [.imm32, .freg]⟩, ⟨"mov.l", "@(i8,gbr),r0", 0b1100011000000000#16, .d, false, [.imm32, .freg]⟩]) (by decide +kernel) (by rcases n with _ | n <;> rcases m with _ | m <;> rfl), rfl, rfl, ⟨rfl, rfl⟩, fun h => absurd rfl h, fun _ => rfl⟩
  · exact ⟨⟨"mov.b", "r0,@(i4,t)", 0b1000000000000000#16, .nd4, false, [.freg]⟩,
      ⟨15, n, 4, e⟩, parse_of (l := [⟨"mov.b", "s,@t", 0b0010000000000000#16, .nm, false, []⟩, ⟨"mov.b", "@s,t", 0b0110000000000000#16, .nm, false, []⟩, ⟨"mov.b", "s,@-t", 0b0010000000000100#16, .nm, false, []⟩, ⟨"mov.b", "@s+,t", 0b0110000000000100#16, .nm, false, []⟩, ⟨"mov.b", "r0,@(i4,t)", 0b1000000000000000#16, .nd4, false, [.freg]⟩, ⟨"mov.b", "@(i4,t),r0", 0b1000010000000000#16, .nd4, false, [.freg]⟩, ⟨"mov.b", "s,@(r0,t)", 0b0000000000000100#16, .nm, false, [.freg]⟩, ⟨"mov.b", "@(r0,s),t", 0b0000000000001100#16, .nm, false, [.freg]⟩, ⟨"mov.b", "r0,@(i8,gbr)", 0b1100000000000000#16, .d, false, [.freg]⟩, ⟨"mov.b", "@(i8,gbr),r0", 0b1100010000000000#16, .d, false, [.freg]⟩]) (by decide +kernel) (by rcases n with _ | n <;> rfl), rfl, rfl, ⟨rfl, rfl⟩, fun _ => rfl, fun _ => rfl⟩
  · exact ⟨⟨"mov.w", "r0,@(i4,t)", 0b1000000100000000#16, .nd4, false, [.imm16, .freg]⟩,
      ⟨15, n, 4, e⟩, parse_of (l := [⟨"mov.w", "i8,t", 0b1001000000000000#16, .nd8, false, [.imm16, .immrel]⟩, ⟨"mov.w", "@(i8,pc),t", 0b1001000000000000#16, .nd8, false, [.freg, .imm16, .pcrelmanual]⟩, ⟨"mov.w", "s,@t", 0b0010000000000001#16, .nm, false, []⟩, ⟨"mov.w", "@s,t", 0b0110000000000001#16, .nm, false, []⟩, ⟨"mov.w", "s,@-t", 0b0010000000000101#16, .nm, false, []⟩, ⟨"mov.w", "@s+,t", 0b0110000000000101#16, .nm, false, []⟩, ⟨"mov.w", "r0,@(i4,t)", 0b1000000100000000#16, .nd4, false, [.imm16, .freg]⟩, ⟨"mov.w", "@(i4,t),r0", 0b1000010100000000#16, .nd4, false, [.imm16, .freg]⟩, ⟨"mov.w", "s,@(r0,t)", 0b0000000000000101#16, .nm, false, [.freg]⟩, ⟨"mov.w", "@(r0,s),t", 0b0000000000001101#16, .nm, false, [.freg]⟩, ⟨"mov.w", "r0,@(i8,gbr)", 0b1100000100000000#16, .d, false, [.imm16, .freg]⟩, ⟨"mov.w", "@(i8,gbr),r0", 0b1100010100000000#16, .d, false, [.imm16, .freg]⟩]) (by decide +kernel) (by rcases n with _ | n <;> rfl), rfl, rfl, ⟨rfl, rfl⟩, fun _ => rfl, fun _ => rfl⟩
  · exact ⟨⟨"mov.l", "s,@(i4,t)", 0b0001000000000000#16, .nmd, false, [.imm32, .freg]⟩,
      ⟨m, n, 4, e⟩, parse_of (l := [⟨"mov.l", "i8,t", 0b1101000000000000#16, .nd8, false, [.imm32, .immrel]⟩, ⟨"mov.l", "@(i8,pc),t", 0b1101000000000000#16, .nd8, false, [.freg, .imm32, .pcrelmanual]⟩, ⟨"mov.l", "s,@t", 0b0010000000000010#16, .nm, false, []⟩, ⟨"mov.l", "@s,t", 0b0110000000000010#16, .nm, false, []⟩, ⟨"mov.l", "s,@-t", 0b0010000000000110#16, .nm, false, []⟩, ⟨"mov.l", "@s+,t", 0b0110000000000110#16, .nm, false, []⟩, ⟨"mov.l", "s,@(i4,t)", 0b0001000000000000#16, .nmd, false, [.imm32, .freg]⟩, ⟨"mov.l", "@(i4,s),t", 0b0101000000000000#16, .nmd, false, [.imm32, .freg]⟩, ⟨"mov.l", "s,@(r0,t)", 0b0000000000000110#16, .nm, false, [.freg]⟩, ⟨"mov.l", "@(r0,s),t", 0b0000000000001110#16, .nm, false, [.freg]⟩, ⟨"mov.l", "r0,@(i8,gbr)", 0b1100001000000000#16, .d, false, [.imm32, .freg]⟩, ⟨"mov.l", "@(i8,gbr),r0", 0b1100011000000000#16, .d, false, [.imm32, .freg]⟩]) (by decide +kernel) (by rcases n with _ | n <;> rcases m with _ | m <;> rfl), rfl, rfl, ⟨rfl, rfl⟩, fun _ => rfl, fun _ => rfl⟩
  · exact ⟨⟨"mov.b", "@(i4,t),r0", 0b1000010000000000#16, .nd4, false, [.freg]⟩,
      ⟨15, m, 4, e⟩, parse_of (l := [⟨"mov.b", "s,@t", 0b0010000000000000#16, .nm, false, []⟩, ⟨"mov.b", "@s,t", 0b0110000000000000#16, .nm, false, []⟩, ⟨"mov.b", "s,@-t", 0b0010000000000100#16, .nm, false, []⟩, ⟨"mov.b", "@s+,t", 0b0110000000000100#16, .nm, false, []⟩, ⟨"mov.b", "r0,@(i4,t)", 0b1000000000000000#16, .nd4, false, [.freg]⟩, ⟨"mov.b", "@(i4,t),r0", 0b1000010000000000#16, .nd4, false, [.freg]⟩, ⟨"mov.b", "s,@(r0,t)", 0b0000000000000100#16, .nm, false, [.freg]⟩, ⟨"mov.b", "@(r0,s),t", 0b0000000000001100#16, .nm, false, [.freg]⟩, ⟨"mov.b", "r0,@(i8,gbr)", 0b1100000000000000#16, .d, false, [.freg]⟩, ⟨"mov.b", "@(i8,gbr),r0", 0b1100010000000000#16, .d, false, [.freg]⟩]) (by decide +kernel) (by rcases m with _ | m <;> rfl), rfl, rfl, ⟨rfl, rfl⟩, fun _ => rfl, fun _ => rfl⟩
  · exact ⟨⟨"mov.w", "@(i4,t),r0", 0b1000010100000000#16, .nd4, false, [.imm16, .freg]⟩,
      ⟨15, m, 4, e⟩, parse_of (l := [⟨"mov.w", "i8,t", 0b1001000000000000#16, .nd8, false, [.imm16, .immrel]⟩, ⟨"mov.w", "@(i8,pc),t", 0b1001000000000000#16, .nd8, false, [.freg, .imm16, .pcrelmanual]⟩, ⟨"mov.w", "s,@t", 0b0010000000000001#16, .nm, false, []⟩, ⟨"mov.w", "@s,t", 0b0110000000000001#16, .nm, false, []⟩, ⟨"mov.w", "s,@-t", 0b0010000000000101#16, .nm, false, []⟩, ⟨"mov.w", "@s+,t", 0b0110000000000101#16, .nm, false, []⟩, ⟨"mov.w", "r0,@(i4,t)", 0b1000000100000000#16, .nd4, false, [.imm16, .freg]⟩, ⟨"mov.w", "@(i4,t),r0", 0b1000010100000000#16, .nd4, false, [.imm16, .freg]⟩, ⟨"mov.w", "s,@(r0,t)", 0b0000000000000101#16, .nm, false, [.freg]⟩, ⟨"mov.w", "@(r0,s),t", 0b0000000000001101#16, .nm, false, [.freg]⟩, ⟨"mov.w", "r0,@(i8,gbr)", 0b1100000100000000#16, .d, false, [.imm16, .freg]⟩, ⟨"mov.w", "@(i8,gbr),r0", 0b1100010100000000#16, .d, false, [.imm16, .freg]⟩]) (by decide +kernel) (by rcases m with _ | m <;> rfl), rfl, rfl, ⟨rfl, rfl⟩, fun _ => rfl, fun _ => rfl⟩
  · exact ⟨⟨"mov.l", "@(i4,s),t", 0b0101000000000000#16, .nmd, false, [.imm32, .freg]⟩,
      ⟨m, n, 4, e⟩, parse_of (l := [⟨"mov.l", "i8,t", 0b1101000000000000#16, .nd8, false, [.imm32, .immrel]⟩, ⟨"mov.l", "@(i8,pc),t", 0b1101000000000000#16, .nd8, false, [.freg, .imm32, .pcrelmanual]⟩, ⟨"mov.l", "s,@t", 0b0010000000000010#16, .nm, false, []⟩, ⟨"mov.l", "@s,t", 0b0110000000000010#16, .nm, false, []⟩, ⟨"mov.l", "s,@-t", 0b0010000000000110#16, .nm, false, []⟩, ⟨"mov.l", "@s+,t", 0b0110000000000110#16, .nm, false, []⟩, ⟨"mov.l", "s,@(i4,t)", 0b0001000000000000#16, .nmd, false, [.imm32, .freg]⟩, ⟨"mov.l", "@(i4,s),t", 0b0101000000000000#16, .nmd, false, [.imm32, .freg]⟩, ⟨"mov.l", "s,@(r0,t)", 0b0000000000000110#16, .nm, false, [.freg]⟩, ⟨"mov.l", "@(r0,s),t", 0b0000000000001110#16, .nm, false, [.freg]⟩, ⟨"mov.l", "r0,@(i8,gbr)", 0b1100001000000000#16, .d, false, [.imm32, .freg]⟩, ⟨"mov.l", "@(i8,gbr),r0", 0b1100011000000000#16, .d, false, [.imm32, .freg]⟩]) (by decide +kernel) (by rcases n with _ | n <;> rcases m with _ | m <;> rfl), rfl, rfl, ⟨rfl, rfl⟩, fun _ => rfl, fun _ => rfl⟩
  · exact ⟨⟨"mov.b", "s,@(r0,t)", 0b0000000000000100#16, .nm, false, [.freg]⟩,
      ⟨m, n, 0, .int 0⟩, parse_of (l := [⟨"mov.b", "s,@t", 0b0010000000000000#16, .nm, false, []⟩, ⟨"mov.b", "@s,t", 0b0110000000000000#16, .nm, false, []⟩, ⟨"mov.b", "s,@-t", 0b0010000000000100#16, .nm, false, []⟩, ⟨"mov.b", "@s+,t", 0b0110000000000100#16, .nm, false, []⟩, ⟨"mov.b", "r0,@(i4,t)", 0b1000000000000000#16, .nd4, false, [.freg]⟩, ⟨"mov.b", "@(i4,t),r0", 0b1000010000000000#16, .nd4, false, [.freg]⟩, ⟨"mov.b", "s,@(r0,t)", 0b0000000000000100#16, .nm, false, [.freg]⟩, ⟨"mov.b", "@(r0,s),t", 0b0000000000001100#16, .nm, false, [.freg]⟩, ⟨"mov.b", "r0,@(i8,gbr)", 0b1100000000000000#16, .d, false, [.freg]⟩, ⟨"mov.b", "@(i8,gbr),r0", 0b1100010000000000#16, .d, false, [.freg]⟩]) (by decide +kernel) (by rcases n with _ | n <;> rcases m with _ | m <;> rfl), rfl, rfl, ⟨rfl, rfl⟩, fun h => absurd rfl h, fun _ => rfl⟩
  · exact ⟨⟨"mov.w", "s,@(r0,t)", 0b0000000000000101#16, .nm, false, [.freg]⟩,
      ⟨m, n, 0, .int 0⟩, parse_of (l := [⟨"mov.w", "i8,t", 0b1001000000000000#16, .nd8, false, [.imm16, .immrel]⟩, ⟨"mov.w", "@(i8,pc),t", 0b1001000000000000#16, .nd8, false, [.freg, .imm16, .pcrelmanual]⟩, ⟨"mov.w", "s,@t", 0b0010000000000001#16, .nm, false, []⟩, ⟨"mov.w", "@s,t", 0b0110000000000001#16, .nm, false, []⟩, ⟨"mov.w", "s,@-t", 0b0010000000000101#16, .nm, false, []⟩, ⟨"mov.w", "@s+,t", 0b0110000000000101#16, .nm, false, []⟩, ⟨"mov.w", "r0,@(i4,t)", 0b1000000100000000#16, .nd4, false, [.imm16, .freg]⟩, ⟨"mov.w", "@(i4,t),r0", 0b1000010100000000#16, .nd4, false, [.imm16, .freg]⟩, ⟨"mov.w", "s,@(r0,t)", 0b0000000000000101#16, .nm, false, [.freg]⟩, ⟨"mov.w", "@(r0,s),t", 0b0000000000001101#16, .nm, false, [.freg]⟩, ⟨"mov.w", "r0,@(i8,gbr)", 0b1100000100000000#16, .d, false, [.imm16, .freg]⟩, ⟨"mov.w", "@(i8,gbr),r0", 0b1100010100000000#16, .d, false, [.imm16, .freg]⟩]) (by decide +kernel) (by rcases n with _ | n <;> rcases m with _ | m <;> rfl), rfl, rfl, ⟨rfl, rfl⟩, fun h => absurd rfl h, fun _ => rfl⟩
  · exact ⟨⟨"mov.l", "s,@(r0,t)", 0b0000000000000110#16, .nm, false, [.freg]⟩,
      ⟨m, n, 0, .int 0⟩, parse_of (l := [⟨"mov.l", "i8,t", 0b1101000000000000#16, .nd8, false, [.imm32, .immrel]⟩, ⟨"mov.l", "@(i8,pc),t", 0b1101000000000000#16, .nd8, false, [.freg, .imm32, .pcrelmanual]⟩, ⟨"mov.l", "s,@t", 0b0010000000000010#16, .nm, false, []⟩, ⟨"mov.l", "@s,t", 0b0110000000000010#16, .nm, false, []⟩, ⟨"mov.l", "s,@-t", 0b0010000000000110#16, .nm, false, []⟩, ⟨"mov.l", "@s+,t", 0b0110000000000110#16, .nm, false, []⟩, ⟨"mov.l", "s,@(i4,t)", 0b0001000000000000#16, .nmd, false, [.imm32, .freg]⟩, ⟨"mov.l", "@(i4,s),t", 0b0101000000000000#16, .nmd, false, [.imm32, .freg]⟩, ⟨"mov.l", "s,@(r0,t)", 0b0000000000000110#16, .nm, false, [.freg]⟩, ⟨"mov.l", "@(r0,s),t", 0b0000000000001110#16, .nm, false, [.freg]⟩, ⟨"mov.l", "r0,@(i8,gbr)", 0b1100001000000000#16, .d, false, [.imm32, .freg]⟩, ⟨"mov.l", "@(i8,gbr),r0", 0b1100011000000000#16, .d, false, [.imm32, .freg]⟩]) (by decide +kernel) (by rcases n with _ | n <;> rcases m with _ | m <;> rfl), rfl, rfl, ⟨rfl, rfl⟩, fun h => absurd rfl h, fun _ => rfl⟩
  · exact ⟨⟨"mov.b", "@(r0,s),t", 0b0000000000001100#16, .nm, false, [.freg]⟩,
      ⟨m, n, 0, .int 0⟩, parse_of (l := [⟨"mov.b", "s,@t", 0b0010000000000000#16, .nm, false, []⟩, ⟨"mov.b", "@s,t", 0b0110000000000000#16, .nm, false, []⟩, ⟨"mov.b", "s,@-t", 0b0010000000000100#16, .nm, false, []⟩, ⟨"mov.b", "@s+,t", 0b0110000000000100#16, .nm, false, []⟩, ⟨"mov.b", "r0,@(i4,t)", 0b1000000000000000#16, .nd4, false, [.freg]⟩, ⟨"mov.b", "@(i4,t),r0", 0b1000010000000000#16, .nd4, false, [.freg]⟩, ⟨"mov.b", "s,@(r0,t)", 0b0000000000000100#16, .nm, false, [.freg]⟩, ⟨"mov.b", "@(r0,s),t", 0b0000000000001100#16, .nm, false, [.freg]⟩, ⟨"mov.b", "r0,@(i8,gbr)", 0b1100000000000000#16, .d, false, [.freg]⟩, ⟨"mov.b", "@(i8,gbr),r0", 0b1100010000000000#16, .d, false, [.freg]⟩]) (by decide +kernel) (by rcases n with _ | n <;> rcases m with _ | m <;> rfl), rfl, rfl, ⟨rfl, rfl⟩, fun h => absurd rfl h, fun _ => rfl⟩
  · exact ⟨⟨"mov.w", "@(r0,s),t", 0b0000000000001101#16, .nm, false, [.freg]⟩,
      ⟨m, n, 0, .int 0⟩, parse_of (l := [⟨"mov.w", "i8,t", 0b1001000000000000#16, .nd8, false, [.imm16, .immrel]⟩, ⟨"mov.w", "@(i8,pc),t", 0b1001000000000000#16, .nd8, false, [.freg, .imm16, .pcrelmanual]⟩, ⟨"mov.w", "s,@t", 0b0010000000000001#16, .nm, false, []⟩, ⟨"mov.w", "@s,t", 0b0110000000000001#16, .nm, false, []⟩, ⟨"mov.w", "s,@-t", 0b0010000000000101#16, .nm, false, []⟩, ⟨"mov.w", "@s+,t", 0b0110000000000101#16, .nm, false, []⟩, ⟨"mov.w", "r0,@(i4,t)", 0b1000000100000000#16, .nd4, false, [.imm16, .freg]⟩, ⟨"mov.w", "@(i4,t),r0", 0b1000010100000000#16, .nd4, false, [.imm16, .freg]⟩, ⟨"mov.w", "s,@(r0,t)", 0b0000000000000101#16, .nm, false, [.freg]⟩, ⟨"mov.w", "@(r0,s),t", 0b0000000000001101#16, .nm, false, [.freg]⟩, ⟨"mov.w", "r0,@(i8,gbr)", 0b1100000100000000#16, .d, false, [.imm16, .freg]⟩, ⟨"mov.w", "@(i8,gbr),r0", 0b1100010100000000#16, .d, false, [.imm16, .freg]⟩]) (by decide +kernel) (by rcases n with _ | n <;> rcases m with _ | m <;> rfl), rfl, rfl, ⟨rfl, rfl⟩, fun h => absurd rfl h, fun _ => rfl⟩
  · exact ⟨⟨"mov.l", "@(r0,s),t", 0b0000000000001110#16, .nm, false, [.freg]⟩,
      ⟨m, n, 0, .int 0⟩, parse_of (l := [⟨"mov.l", "i8,t", 0b1101000000000000#16, .nd8, false, [.imm32, .immrel]⟩, ⟨"mov.l", "@(i8,pc),t", 0b1101000000000000#16, .nd8, false, [.freg, .imm32, .pcrelmanual]⟩, ⟨"mov.l", "s,@t", 0b0010000000000010#16, .nm, false, []⟩, ⟨"mov.l", "@s,t", 0b0110000000000010#16, .nm, false, []⟩, ⟨"mov.l", "s,@-t", 0b0010000000000110#16, .nm, false, []⟩, ⟨"mov.l", "@s+,t", 0b0110000000000110#16, .nm, false, []⟩, ⟨"mov.l", "s,@(i4,t)", 0b0001000000000000#16, .nmd, false, [.imm32, .freg]⟩, ⟨"mov.l", "@(i4,s),t", 0b0101000000000000#16, .nmd, false, [.imm32, .freg]⟩, ⟨"mov.l", "s,@(r0,t)", 0b0000000000000110#16, .nm, false, [.freg]⟩, ⟨"mov.l", "@(r0,s),t", 0b0000000000001110#16, .nm, false, [.freg]⟩, ⟨"mov.l", "r0,@(i8,gbr)", 0b1100001000000000#16, .d, false, [.imm32, .freg]⟩, ⟨"mov.l", "@(i8,gbr),r0", 0b1100011000000000#16, .d, false, [.imm32, .freg]⟩]) (by decide +kernel) (by rcases n with _ | n <;> rcases m with _ | m <;> rfl), rfl, rfl, ⟨rfl, rfl⟩, fun h => absurd rfl h, fun _ => rfl⟩
  · exact ⟨⟨"mov.b", "r0,@(i8,gbr)", 0b1100000000000000#16, .d, false, [.freg]⟩,
      ⟨15, 15, 8, e⟩, parse_of (l := [⟨"mov.b", "s,@t", 0b0010000000000000#16, .nm, false, []⟩, ⟨"mov.b", "@s,t", 0b0110000000000000#16, .nm, false, []⟩, ⟨"mov.b", "s,@-t", 0b0010000000000100#16, .nm, false, []⟩, ⟨"mov.b", "@s+,t", 0b0110000000000100#16, .nm, false, []⟩, ⟨"mov.b", "r0,@(i4,t)", 0b1000000000000000#16, .nd4, false, [.freg]⟩, ⟨"mov.b", "@(i4,t),r0", 0b1000010000000000#16, .nd4, false, [.freg]⟩, ⟨"mov.b", "s,@(r0,t)", 0b0000000000000100#16, .nm, false, [.freg]⟩, ⟨"mov.b", "@(r0,s),t", 0b0000000000001100#16, .nm, false, [.freg]⟩, ⟨"mov.b", "r0,@(i8,gbr)", 0b1100000000000000#16, .d, false, [.freg]⟩, ⟨"mov.b", "@(i8,gbr),r0", 0b1100010000000000#16, .d, false, [.freg]⟩]) (by decide +kernel) (by rfl), rfl, rfl, ⟨rfl, rfl⟩, fun _ => rfl, fun _ => rfl⟩
  · exact ⟨⟨"mov.w", "r0,@(i8,gbr)", 0b1100000100000000#16, .d, false, [.imm16, .freg]⟩,
      ⟨15, 15, 8, e⟩, parse_of (l := [⟨"mov.w", "i8,t", 0b1001000000000000#16, .nd8, false, [.imm16, .immrel]⟩, ⟨"mov.w", "@(i8,pc),t", 0b1001000000000000#16, .nd8, false, [.freg, .imm16, .pcrelmanual]⟩, ⟨"mov.w", "s,@t", 0b0010000000000001#16, .nm, false, []⟩, ⟨"mov.w", "@s,t", 0b0110000000000001#16, .nm, false, []⟩, ⟨"mov.w", "s,@-t", 0b0010000000000101#16, .nm, false, []⟩, ⟨"mov.w", "@s+,t", 0b0110000000000101#16, .nm, false, []⟩, ⟨"mov.w", "r0,@(i4,t)", 0b1000000100000000#16, .nd4, false, [.imm16, .freg]⟩, ⟨"mov.w", "@(i4,t),r0", 0b1000010100000000#16, .nd4, false, [.imm16, .freg]⟩, ⟨"mov.w", "s,@(r0,t)", 0b0000000000000101#16, .nm, false, [.freg]⟩, ⟨"mov.w", "@(r0,s),t", 0b0000000000001101#16, .nm, false, [.freg]⟩, ⟨"mov.w", "r0,@(i8,gbr)", 0b1100000100000000#16, .d, false, [.imm16, .freg]⟩, ⟨"mov.w", "@(i8,gbr),r0", 0b1100010100000000#16, .d, false, [.imm16, .freg]⟩]) (by decide +kernel) (by rfl), rfl, rfl, ⟨rfl, rfl⟩, fun _ => rfl, fun _ => rfl⟩
  · exact ⟨⟨"mov.l", "r0,@(i8,gbr)", 0b1100001000000000#16, .d, false, [.imm32, .freg]⟩,
      ⟨15, 15, 8, e⟩, parse_of (l := [⟨"mov.l", "i8,t", 0b1101000000000000#16, .nd8, false, [.imm32, .immrel]⟩, ⟨"mov.l", "@(i8,pc),t", 0b1101000000000000#16, .nd8, false, [.freg, .imm32, .pcrelmanual]⟩, ⟨"mov.l", "s,@t", 0b0010000000000010#16, .nm, false, []⟩, ⟨"mov.l", "@s,t", 0b0110000000000010#16, .nm, false, []⟩, ⟨"mov.l", "s,@-t", 0b0010000000000110#16, .nm, false, []⟩, ⟨"mov.l", "@s+,t", 0b0110000000000110#16, .nm, false, []⟩, ⟨"mov.l", "s,@(i4,t)", 0b0001000000000000#16, .nmd, false, [.imm32, .freg]⟩, ⟨"mov.l", "@(i4,s),t", 0b0101000000000000#16, .nmd, false, [.imm32, .freg]⟩, ⟨"mov.l", "s,@(r0,t)", 0b0000000000000110#16, .nm, false, [.freg]⟩, ⟨"mov.l", "@(r0,s),t", 0b0000000000001110#16, .nm, false, [.freg]⟩, ⟨"mov.l", "r0,@(i8,gbr)", 0b1100001000000000#16, .d, false, [.imm32, .freg]⟩, ⟨"mov.l", "@(i8,gbr),r0", 0b1100011000000000#16, .d, false, [.imm32, .freg]⟩]) (by decide +kernel) (by rfl), rfl, rfl, ⟨rfl, rfl⟩, fun _ => rfl, fun _ => rfl⟩
  · exact ⟨⟨"mov.b", "@(i8,gbr),r0", 0b1100010000000000#16, .d, false, [.freg]⟩,
      ⟨15, 15, 8, e⟩, parse_of (l := [⟨"mov.b", "s,@t", 0b0010000000000000#16, .nm, false, []⟩, ⟨"mov.b", "@s,t", 0b0110000000000000#16, .nm, false, []⟩, ⟨"mov.b", "s,@-t", 0b0010000000000100#16, .nm, false, []⟩, ⟨"mov.b", "@s+,t", 0b0110000000000100#16, .nm, false, []⟩, ⟨"mov.b", "r0,@(i4,t)", 0b1000000000000000#16, .nd4, false, [.freg]⟩, ⟨"mov.b", "@(i4,t),r0", 0b1000010000000000#16, .nd4, false, [.freg]⟩, ⟨"mov.b", "s,@(r0,t)", 0b0000000000000100#16, .nm, false, [.freg]⟩, ⟨"mov.b", "@(r0,s),t", 0b0000000000001100#16, .nm, false, [.freg]⟩, ⟨"mov.b", "r0,@(i8,gbr)", 0b1100000000000000#16, .d, false, [.freg]⟩, ⟨"mov.b", "@(i8,gbr),r0", 0b1100010000000000#16, .d, false, [.freg]⟩]) (by decide +kernel) (by rfl), rfl, rfl, ⟨rfl, rfl⟩, fun _ => rfl, fun _ => rfl⟩
  · exact ⟨⟨"mov.w", "@(i8,gbr),r0", 0b1100010100000000#16, .d, false, [.imm16, .freg]⟩,
      ⟨15, 15, 8, e⟩, parse_of (l := [⟨"mov.w", "i8,t", 0b1001000000000000#16, .nd8, false, [.imm16, .immrel]⟩, ⟨"mov.w", "@(i8,pc),t", 0b1001000000000000#16, .nd8, false, [.freg, .imm16, .pcrelmanual]⟩, ⟨"mov.w", "s,@t", 0b0010000000000001#16, .nm, false, []⟩, ⟨"mov.w", "@s,t", 0b0110000000000001#16, .nm, false, []⟩, ⟨"mov.w", "s,@-t", 0b0010000000000101#16, .nm, false, []⟩, ⟨"mov.w", "@s+,t", 0b0110000000000101#16, .nm, false, []⟩, ⟨"mov.w", "r0,@(i4,t)", 0b1000000100000000#16, .nd4, false, [.imm16, .freg]⟩, ⟨"mov.w", "@(i4,t),r0", 0b1000010100000000#16, .nd4, false, [.imm16, .freg]⟩, ⟨"mov.w", "s,@(r0,t)", 0b0000000000000101#16, .nm, false, [.freg]⟩, ⟨"mov.w", "@(r0,s),t", 0b0000000000001101#16, .nm, false, [.freg]⟩, ⟨"mov.w", "r0,@(i8,gbr)", 0b1100000100000000#16, .d, false, [.imm16, .freg]⟩, ⟨"mov.w", "@(i8,gbr),r0", 0b1100010100000000#16, .d, false, [.imm16, .freg]⟩]) (by decide +kernel) (by rfl), rfl, rfl, ⟨rfl, rfl⟩, fun _ => rfl, fun _ => rfl⟩
  · exact ⟨⟨"mov.l", "@(i8,gbr),r0", 0b1100011000000000#16, .d, false, [.imm32, .freg]⟩,
      ⟨15, 15, 8, e⟩, parse_of (l := [⟨"mov.l", "i8,t", 0b1101000000000000#16, .nd8, false, [.imm32, .immrel]⟩, ⟨"mov.l", "@(i8,pc),t", 0b1101000000000000#16, .nd8, false, [.freg, .imm32, .pcrelmanual]⟩, ⟨"mov.l", "s,@t", 0b0010000000000010#16, .nm, false, []⟩, ⟨"mov.l", "@s,t", 0b0110000000000010#16, .nm, false, []⟩, ⟨"mov.l", "s,@-t", 0b0010000000000110#16, .nm, false, []⟩, ⟨"mov.l", "@s+,t", 0b0110000000000110#16, .nm, false, []⟩, ⟨"mov.l", "s,@(i4,t)", 0b0001000000000000#16, .nmd, false, [.imm32, .freg]⟩, ⟨"mov.l", "@(i4,s),t", 0b0101000000000000#16, .nmd, false, [.imm32, .freg]⟩, ⟨"mov.l", "s,@(r0,t)", 0b0000000000000110#16, .nm, false, [.freg]⟩, ⟨"mov.l", "@(r0,s),t", 0b0000000000001110#16, .nm, false, [.freg]⟩, ⟨"mov.l", "r0,@(i8,gbr)", 0b1100001000000000#16, .d, false, [.imm32, .freg]⟩, ⟨"mov.l", "@(i8,gbr),r0", 0b1100011000000000#16, .d, false, [.imm32, .freg]⟩]) (by decide +kernel) (by rfl), rfl, rfl, ⟨rfl, rfl⟩, fun _ => rfl, fun _ => rfl⟩
  · exact ⟨⟨"mova", "i8,r0", 0b1100011100000000#16, .d, false, [.imm32, .freg, .immrel]⟩,
      ⟨15, 15, 8, e⟩, parse_of (l := [⟨"mova", "i8,r0", 0b1100011100000000#16, .d, false, [.imm32, .freg, .immrel]⟩, ⟨"mova", "@(i8,pc),r0", 0b1100011100000000#16, .d, false, [.imm32, .freg, .pcrelmanual]⟩]) (by decide +kernel) (by rfl), rfl, rfl, ⟨rfl, rfl⟩, fun _ => rfl, fun _ => rfl⟩
  · exact ⟨⟨"mova", "@(i8,pc),r0", 0b1100011100000000#16, .d, false, [.imm32, .freg, .pcrelmanual]⟩,
      ⟨15, 15, 8, e⟩, parse_of (l := [⟨"mova", "i8,r0", 0b1100011100000000#16, .d, false, [.imm32, .freg, .immrel]⟩, ⟨"mova", "@(i8,pc),r0", 0b1100011100000000#16, .d, false, [.imm32, .freg, .pcrelmanual]⟩]) (by decide +kernel) (by rfl), rfl, rfl, ⟨rfl, rfl⟩, fun _ => rfl, fun _ => rfl⟩
  · exact ⟨⟨"movt", "t", 0b0000000000101001#16, .n, false, []⟩,
      ⟨15, n, 0, .int 0⟩, parse_of (l := [⟨"movt", "t", 0b0000000000101001#16, .n, false, []⟩]) (by decide +kernel) (rfl), rfl, rfl, ⟨rfl, rfl⟩, fun h => absurd rfl h, fun _ => rfl⟩
  · exact ⟨⟨"swap.b", "s,t", 0b0110000000001000#16, .nm, false, []⟩,
      ⟨m, n, 0, .int 0⟩, parse_of (l := [⟨"swap.b", "s,t", 0b0110000000001000#16, .nm, false, []⟩]) (by decide +kernel) (rfl), rfl, rfl, ⟨rfl, rfl⟩, fun h => absurd rfl h, fun _ => rfl⟩
  · exact ⟨⟨"swap.w", "s,t", 0b0110000000001001#16, .nm, false, []⟩,
      ⟨m, n, 0, .int 0⟩, parse_of (l := [⟨"swap.w", "s,t", 0b0110000000001001#16, .nm, false, []⟩]) (by decide +kernel) (rfl), rfl, rfl, ⟨rfl, rfl⟩, fun h => absurd rfl h, fun _ => rfl⟩
  · exact ⟨⟨"xtrct", "s,t", 0b0010000000001101#16, .nm, false, []⟩,
      ⟨m, n, 0, .int 0⟩, parse_of (l := [⟨"xtrct", "s,t", 0b0010000000001101#16, .nm, false, []⟩]) (by decide +kernel) (rfl), rfl, rfl, ⟨rfl, rfl⟩, fun h => absurd rfl h, fun _ => rfl⟩
  · exact ⟨⟨"add", "s,t", 0b0011000000001100#16, .nm, false, []⟩,
      ⟨m, n, 0, .int 0⟩, parse_of (l := [⟨"add", "s,t", 0b0011000000001100#16, .nm, false, []⟩, ⟨"add", "#i8,t", 0b0111000000000000#16, .ni, false, []⟩, ⟨"add", "i8,t", 0b0111000000000000#16, .ni, false, []⟩]) (by decide +kernel) (by rcases n with _ | n <;> rcases m with _ | m <;> rfl), rfl, rfl, ⟨rfl, rfl⟩, fun h => absurd rfl h, fun _ => rfl⟩
  · exact ⟨⟨"add", "#i8,t", 0b0111000000000000#16, .ni, false, []⟩,
      ⟨15, n, 8, e⟩, parse_of (l := [⟨"add", "s,t", 0b0011000000001100#16, .nm, false, []⟩, ⟨"add", "#i8,t", 0b0111000000000000#16, .ni, false, []⟩, ⟨"add", "i8,t", 0b0111000000000000#16, .ni, false, []⟩]) (by decide +kernel) (by rcases n with _ | n <;> rfl), rfl, rfl, ⟨rfl, rfl⟩, fun _ => rfl, fun _ => rfl⟩
  · exact ⟨⟨"addc", "s,t", 0b0011000000001110#16, .nm, false, []⟩,
      ⟨m, n, 0, .int 0⟩, parse_of (l := [⟨"addc", "s,t", 0b0011000000001110#16, .nm, false, []⟩]) (by decide +kernel) (rfl), rfl, rfl, ⟨rfl, rfl⟩, fun h => absurd rfl h, fun _ => rfl⟩
  · exact ⟨⟨"addv", "s,t", 0b0011000000001111#16, .nm, false, []⟩,
      ⟨m, n, 0, .int 0⟩, parse_of (l := [⟨"addv", "s,t", 0b0011000000001111#16, .nm, false, []⟩]) (by decide +kernel) (rfl), rfl, rfl, ⟨rfl, rfl⟩, fun h => absurd rfl h, fun _ => rfl⟩
  · exact ⟨⟨"cmp/eq", "#i8,r0", 0b1000100000000000#16, .i, false, [.freg]⟩,
      ⟨15, 15, 8, e⟩, parse_of (l := [⟨"cmp/eq", "#i8,r0", 0b1000100000000000#16, .i, false, [.freg]⟩, ⟨"cmp/eq", "i8,r0", 0b1000100000000000#16, .i, false, [.freg]⟩, ⟨"cmp/eq", "s,t", 0b0011000000000000#16, .nm, false, []⟩]) (by decide +kernel) (by rfl), rfl, rfl, ⟨rfl, rfl⟩, fun _ => rfl, fun _ => rfl⟩
  · exact ⟨⟨"cmp/eq", "s,t", 0b0011000000000000#16, .nm, false, []⟩,
      ⟨m, n, 0, .int 0⟩, parse_of (l := [⟨"cmp/eq", "#i8,r0", 0b1000100000000000#16, .i, false, [.freg]⟩, ⟨"cmp/eq", "i8,r0", 0b1000100000000000#16, .i, false, [.freg]⟩, ⟨"cmp/eq", "s,t", 0b0011000000000000#16, .nm, false, []⟩]) (by decide +kernel) (by rcases n with _ | n <;> rcases m with _ | m <;> rfl), rfl, rfl, ⟨rfl, rfl⟩, fun h => absurd rfl h, fun _ => rfl⟩
  · exact ⟨⟨"cmp/hs", "s,t", 0b0011000000000010#16, .nm, false, []⟩,
      ⟨m, n, 0, .int 0⟩, parse_of (l := [⟨"cmp/hs", "s,t", 0b0011000000000010#16, .nm, false, []⟩]) (by decide +kernel) (rfl), rfl, rfl, ⟨rfl, rfl⟩, fun h => absurd rfl h, fun _ => rfl⟩
  · exact ⟨⟨"cmp/ge", "s,t", 0b0011000000000011#16, .nm, false, []⟩,
      ⟨m, n, 0, .int 0⟩, parse_of (l := [⟨"cmp/ge", "s,t", 0b0011000000000011#16, .nm, false, []⟩]) (by decide +kernel) (rfl), rfl, rfl, ⟨rfl, rfl⟩, fun h => absurd rfl h, fun _ => rfl⟩
  · exact ⟨⟨"cmp/hi", "s,t", 0b0011000000000110#16, .nm, false, []⟩,
      ⟨m, n, 0, .int 0⟩, parse_of (l := [⟨"cmp/hi", "s,t", 0b0011000000000110#16, .nm, false, []⟩]) (by decide +kernel) (rfl), rfl, rfl, ⟨rfl, rfl⟩, fun h => absurd rfl h, fun _ => rfl⟩
  · exact ⟨⟨"cmp/gt", "s,t", 0b0011000000000111#16, .nm, false, []⟩,
      ⟨m, n, 0, .int 0⟩, parse_of (l := [⟨"cmp/gt", "s,t", 0b0011000000000111#16, .nm, false, []⟩]) (by decide +kernel) (rfl), rfl, rfl, ⟨rfl, rfl⟩, fun h => absurd rfl h, fun _ => rfl⟩
  · exact ⟨⟨"cmp/pl", "t", 0b0100000000010101#16, .n, false, []⟩,
      ⟨15, n, 0, .int 0⟩, parse_of (l := [⟨"cmp/pl", "t", 0b0100000000010101#16, .n, false, []⟩]) (by decide +kernel) (rfl), rfl, rfl, ⟨rfl, rfl⟩, fun h => absurd rfl h, fun _ => rfl⟩
  · exact ⟨⟨"cmp/pz", "t", 0b0100000000010001#16, .n, false, []⟩,
      ⟨15, n, 0, .int 0⟩, parse_of (l := [⟨"cmp/pz", "t", 0b0100000000010001#16, .n, false, []⟩]) (by decide +kernel) (rfl), rfl, rfl, ⟨rfl, rfl⟩, fun h => absurd rfl h, fun _ => rfl⟩
  · exact ⟨⟨"cmp/str", "s,t", 0b0010000000001100#16, .nm, false, []⟩,
      ⟨m, n, 0, .int 0⟩, parse_of (l := [⟨"cmp/str", "s,t", 0b0010000000001100#16, .nm, false, []⟩]) (by decide +kernel) (rfl), rfl, rfl, ⟨rfl, rfl⟩, fun h => absurd rfl h, fun _ => rfl⟩
  · exact ⟨⟨"div1", "s,t", 0b0011000000000100#16, .nm, false, []⟩,
      ⟨m, n, 0, .int 0⟩, parse_of (l := [⟨"div1", "s,t", 0b0011000000000100#16, .nm, false, []⟩]) (by decide +kernel) (rfl), rfl, rfl, ⟨rfl, rfl⟩, fun h => absurd rfl h, fun _ => rfl⟩
  · exact ⟨⟨"div0s", "s,t", 0b0010000000000111#16, .nm, false, []⟩,
      ⟨m, n, 0, .int 0⟩, parse_of (l := [⟨"div0s", "s,t", 0b0010000000000111#16, .nm, false, []⟩]) (by decide +kernel) (rfl), rfl, rfl, ⟨rfl, rfl⟩, fun h => absurd rfl h, fun _ => rfl⟩
  · exact ⟨⟨"div0u", "", 0b0000000000011001#16, .none, false, []⟩,
      ⟨15, 15, 0, .int 0⟩, parse_of (l := [⟨"div0u", "", 0b0000000000011001#16, .none, false, []⟩]) (by decide +kernel) (rfl), rfl, rfl, ⟨rfl, rfl⟩, fun h => absurd rfl h, fun _ => rfl⟩
  · exact ⟨⟨"dmuls.l", "s,t", 0b0011000000001101#16, .nm, true, []⟩,
      ⟨m, n, 0, .int 0⟩, parse_of (l := [⟨"dmuls.l", "s,t", 0b0011000000001101#16, .nm, true, []⟩]) (by decide +kernel) (rfl), rfl, rfl, ⟨rfl, rfl⟩, fun h => absurd rfl h, fun _ => rfl⟩
  · exact ⟨⟨"dmulu.l", "s,t", 0b0011000000000101#16, .nm, true, []⟩,
      ⟨m, n, 0, .int 0⟩, parse_of (l := [⟨"dmulu.l", "s,t", 0b0011000000000101#16, .nm, true, []⟩]) (by decide +kernel) (rfl), rfl, rfl, ⟨rfl, rfl⟩, fun h => absurd rfl h, fun _ => rfl⟩
  · exact ⟨⟨"dt", "t", 0b0100000000010000#16, .n, true, []⟩,
      ⟨15, n, 0, .int 0⟩, parse_of (l := [⟨"dt", "t", 0b0100000000010000#16, .n, true, []⟩]) (by decide +kernel) (rfl), rfl, rfl, ⟨rfl, rfl⟩, fun h => absurd rfl h, fun _ => rfl⟩
  · exact ⟨⟨"exts.b", "s,t", 0b0110000000001110#16, .nm, false, []⟩,
      ⟨m, n, 0, .int 0⟩, parse_of (l := [⟨"exts.b", "s,t", 0b0110000000001110#16, .nm, false, []⟩]) (by decide +kernel) (rfl), rfl, rfl, ⟨rfl, rfl⟩, fun h => absurd rfl h, fun _ => rfl⟩
  · exact ⟨⟨"exts.w", "s,t", 0b0110000000001111#16, .nm, false, []⟩,
      ⟨m, n, 0, .int 0⟩, parse_of (l := [⟨"exts.w", "s,t", 0b0110000000001111#16, .nm, false, []⟩]) (by decide +kernel) (rfl), rfl, rfl, ⟨rfl, rfl⟩, fun h => absurd rfl h, fun _ => rfl⟩
  · exact ⟨⟨"extu.b", "s,t", 0b0110000000001100#16, .nm, false, []⟩,
      ⟨m, n, 0, .int 0⟩, parse_of (l := [⟨"extu.b", "s,t", 0b0110000000001100#16, .nm, false, []⟩]) (by decide +kernel) (rfl), rfl, rfl, ⟨rfl, rfl⟩, fun h => absurd rfl h, fun _ => rfl⟩
  · exact ⟨⟨"extu.w", "s,t", 0b0110000000001101#16, .nm, false, []⟩,
      ⟨m, n, 0, .int 0⟩, parse_of (l := [⟨"extu.w", "s,t", 0b0110000000001101#16, .nm, false, []⟩]) (by decide +kernel) (rfl), rfl, rfl, ⟨rfl, rfl⟩, fun h => absurd rfl h, fun _ => rfl⟩
  · exact ⟨⟨"mac.l", "@s+,@t+", 0b0000000000001111#16, .nm, true, []⟩,
      ⟨m, n, 0, .int 0⟩, parse_of (l := [⟨"mac.l", "@s+,@t+", 0b0000000000001111#16, .nm, true, []⟩]) (by decide +kernel) (rfl), rfl, rfl, ⟨rfl, rfl⟩, fun h => absurd rfl h, fun _ => rfl⟩
  · exact ⟨⟨"mac.w", "@s+,@t+", 0b0100000000001111#16, .nm, false, []⟩,
      ⟨m, n, 0, .int 0⟩, parse_of (l := [⟨"mac.w", "@s+,@t+", 0b0100000000001111#16, .nm, false, []⟩]) (by decide +kernel) (rfl), rfl, rfl, ⟨rfl, rfl⟩, fun h => absurd rfl h, fun _ => rfl⟩
  · exact ⟨⟨"mul.l", "s,t", 0b0000000000000111#16, .nm, true, []⟩,
      ⟨m, n, 0, .int 0⟩, parse_of (l := [⟨"mul.l", "s,t", 0b0000000000000111#16, .nm, true, []⟩]) (by decide +kernel) (rfl), rfl, rfl, ⟨rfl, rfl⟩, fun h => absurd rfl h, fun _ => rfl⟩
  · exact ⟨⟨"muls.w", "s,t", 0b0010000000001111#16, .nm, false, []⟩,
      ⟨m, n, 0, .int 0⟩, parse_of (l := [⟨"muls.w", "s,t", 0b0010000000001111#16, .nm, false, []⟩]) (by decide +kernel) (rfl), rfl, rfl, ⟨rfl, rfl⟩, fun h => absurd rfl h, fun _ => rfl⟩
  · exact ⟨⟨"mulu.w", "s,t", 0b0010000000001110#16, .nm, false, []⟩,
      ⟨m, n, 0, .int 0⟩, parse_of (l := [⟨"mulu.w", "s,t", 0b0010000000001110#16, .nm, false, []⟩]) (by decide +kernel) (rfl), rfl, rfl, ⟨rfl, rfl⟩, fun h => absurd rfl h, fun _ => rfl⟩
  · exact ⟨⟨"neg", "s,t", 0b0110000000001011#16, .nm, false, []⟩,
      ⟨m, n, 0, .int 0⟩, parse_of (l := [⟨"neg", "s,t", 0b0110000000001011#16, .nm, false, []⟩]) (by decide +kernel) (rfl), rfl, rfl, ⟨rfl, rfl⟩, fun h => absurd rfl h, fun _ => rfl⟩
  · exact ⟨⟨"negc", "s,t", 0b0110000000001010#16, .nm, false, []⟩,
      ⟨m, n, 0, .int 0⟩, parse_of (l := [⟨"negc", "s,t", 0b0110000000001010#16, .nm, false, []⟩]) (by decide +kernel) (rfl), rfl, rfl, ⟨rfl, rfl⟩, fun h => absurd rfl h, fun _ => rfl⟩
  · exact ⟨⟨"sub", "s,t", 0b0011000000001000#16, .nm, false, []⟩,
      ⟨m, n, 0, .int 0⟩, parse_of (l := [⟨"sub", "s,t", 0b0011000000001000#16, .nm, false, []⟩]) (by decide +kernel) (rfl), rfl, rfl, ⟨rfl, rfl⟩, fun h => absurd rfl h, fun _ => rfl⟩
  · exact ⟨⟨"subc", "s,t", 0b0011000000001010#16, .nm, false, []⟩,
      ⟨m, n, 0, .int 0⟩, parse_of (l := [⟨"subc", "s,t", 0b0011000000001010#16, .nm, false, []⟩]) (by decide +kernel) (rfl), rfl, rfl, ⟨rfl, rfl⟩, fun h => absurd rfl h, fun _ => rfl⟩
  · exact ⟨⟨"subv", "s,t", 0b0011000000001011#16, .nm, false, []⟩,
      ⟨m, n, 0, .int 0⟩, parse_of (l := [⟨"subv", "s,t", 0b0011000000001011#16, .nm, false, []⟩]) (by decide +kernel) (rfl), rfl, rfl, ⟨rfl, rfl⟩, fun h => absurd rfl h, fun _ => rfl⟩
  · exact ⟨⟨"and", "s,t", 0b0010000000001001#16, .nm, false, []⟩,
      ⟨m, n, 0, .int 0⟩, parse_of (l := [⟨"and", "s,t", 0b0010000000001001#16, .nm, false, []⟩, ⟨"and", "#i8,r0", 0b1100100100000000#16, .i, false, [.freg]⟩, ⟨"and", "i8,r0", 0b1100100100000000#16, .i, false, [.freg]⟩]) (by decide +kernel) (by rcases n with _ | n <;> rcases m with _ | m <;> rfl), rfl, rfl, ⟨rfl, rfl⟩, fun h => absurd rfl h, fun _ => rfl⟩
  · exact ⟨⟨"and", "#i8,r0", 0b1100100100000000#16, .i, false, [.freg]⟩,
      ⟨15, 15, 8, e⟩, parse_of (l := [⟨"and", "s,t", 0b0010000000001001#16, .nm, false, []⟩, ⟨"and", "#i8,r0", 0b1100100100000000#16, .i, false, [.freg]⟩, ⟨"and", "i8,r0", 0b1100100100000000#16, .i, false, [.freg]⟩]) (by decide +kernel) (by rfl), rfl, rfl, ⟨rfl, rfl⟩, fun _ => rfl, fun _ => rfl⟩
  · exact ⟨⟨"and.b", "#i8,@(r0,gbr)", 0b1100110100000000#16, .i, false, [.freg]⟩,
      ⟨15, 15, 8, e⟩, parse_of (l := [⟨"and.b", "#i8,@(r0,gbr)", 0b1100110100000000#16, .i, false, [.freg]⟩, ⟨"and.b", "i8,@(r0,gbr)", 0b1100110100000000#16, .i, false, [.freg]⟩]) (by decide +kernel) (by rfl), rfl, rfl, ⟨rfl, rfl⟩, fun _ => rfl, fun _ => rfl⟩
  · exact ⟨⟨"not", "s,t", 0b0110000000000111#16, .nm, false, []⟩,
      ⟨m, n, 0, .int 0⟩, parse_of (l := [⟨"not", "s,t", 0b0110000000000111#16, .nm, false, []⟩]) (by decide +kernel) (rfl), rfl, rfl, ⟨rfl, rfl⟩, fun h => absurd rfl h, fun _ => rfl⟩
  · exact ⟨⟨"or", "s,t", 0b0010000000001011#16, .nm, false, []⟩,
      ⟨m, n, 0, .int 0⟩, parse_of (l := [⟨"or", "s,t", 0b0010000000001011#16, .nm, false, []⟩, ⟨"or", "#i8,r0", 0b1100101100000000#16, .i, false, [.freg]⟩, ⟨"or", "i8,r0", 0b1100101100000000#16, .i, false, [.freg]⟩]) (by decide +kernel) (by rcases n with _ | n <;> rcases m with _ | m <;> rfl), rfl, rfl, ⟨rfl, rfl⟩, fun h => absurd rfl h, fun _ => rfl⟩
  · exact ⟨⟨"or", "#i8,r0", 0b1100101100000000#16, .i, false, [.freg]⟩,
      ⟨15, 15, 8, e⟩, parse_of (l := [⟨"or", "s,t", 0b0010000000001011#16, .nm, false, []⟩, ⟨"or", "#i8,r0", 0b1100101100000000#16, .i, false, [.freg]⟩, ⟨"or", "i8,r0", 0b1100101100000000#16, .i, false, [.freg]⟩]) (by decide +kernel) (by rfl), rfl, rfl, ⟨rfl, rfl⟩, fun _ => rfl, fun _ => rfl⟩
  · exact ⟨⟨"or.b", "#i8,@(r0,gbr)", 0b1100111100000000#16, .i, false, [.freg]⟩,
      ⟨15, 15, 8, e⟩, parse_of (l := [⟨"or.b", "#i8,@(r0,gbr)", 0b1100111100000000#16, .i, false, [.freg]⟩, ⟨"or.b", "i8,@(r0,gbr)", 0b1100111100000000#16, .i, false, [.freg]⟩]) (by decide +kernel) (by rfl), rfl, rfl, ⟨rfl, rfl⟩, fun _ => rfl, fun _ => rfl⟩
  · exact ⟨⟨"tas.b", "@t", 0b0100000000011011#16, .n, false, []⟩,
      ⟨15, n, 0, .int 0⟩, parse_of (l := [⟨"tas.b", "@t", 0b0100000000011011#16, .n, false, []⟩]) (by decide +kernel) (rfl), rfl, rfl, ⟨rfl, rfl⟩, fun h => absurd rfl h, fun _ => rfl⟩
  · exact ⟨⟨"tst", "s,t", 0b0010000000001000#16, .nm, false, []⟩,
      ⟨m, n, 0, .int 0⟩, parse_of (l := [⟨"tst", "s,t", 0b0010000000001000#16, .nm, false, []⟩, ⟨"tst", "#i8,r0", 0b1100100000000000#16, .i, false, [.freg]⟩, ⟨"tst", "i8,r0", 0b1100100000000000#16, .i, false, [.freg]⟩]) (by decide +kernel) (by rcases n with _ | n <;> rcases m with _ | m <;> rfl), rfl, rfl, ⟨rfl, rfl⟩, fun h => absurd rfl h, fun _ => rfl⟩
  · exact ⟨⟨"tst", "#i8,r0", 0b1100100000000000#16, .i, false, [.freg]⟩,
      ⟨15, 15, 8, e⟩, parse_of (l := [⟨"tst", "s,t", 0b0010000000001000#16, .nm, false, []⟩, ⟨"tst", "#i8,r0", 0b1100100000000000#16, .i, false, [.freg]⟩, ⟨"tst", "i8,r0", 0b1100100000000000#16, .i, false, [.freg]⟩]) (by decide +kernel) (by rfl), rfl, rfl, ⟨rfl, rfl⟩, fun _ => rfl, fun _ => rfl⟩
  · exact ⟨⟨"tst.b", "#i8,@(r0,gbr)", 0b1100110000000000#16, .i, false, [.freg]⟩,
      ⟨15, 15, 8, e⟩, parse_of (l := [⟨"tst.b", "#i8,@(r0,gbr)", 0b1100110000000000#16, .i, false, [.freg]⟩, ⟨"tst.b", "i8,@(r0,gbr)", 0b1100110000000000#16, .i, false, [.freg]⟩]) (by decide +kernel) (by rfl), rfl, rfl, ⟨rfl, rfl⟩, fun _ => rfl, fun _ => rfl⟩
  · exact ⟨⟨"xor", "s,t", 0b0010000000001010#16, .nm, false, []⟩,
      ⟨m, n, 0, .int 0⟩, parse_of (l := [⟨"xor", "s,t", 0b0010000000001010#16, .nm, false, []⟩, ⟨"xor", "#i8,r0", 0b1100101000000000#16, .i, false, [.freg]⟩, ⟨"xor", "i8,r0", 0b1100101000000000#16, .i, false, [.freg]⟩]) (by decide +kernel) (by rcases n with _ | n <;> rcases m with _ | m <;> rfl), rfl, rfl, ⟨rfl, rfl⟩, fun h => absurd rfl h, fun _ => rfl⟩
  · exact ⟨⟨"xor", "#i8,r0", 0b1100101000000000#16, .i, false, [.freg]⟩,
      ⟨15, 15, 8, e⟩, parse_of (l := [⟨"xor", "s,t", 0b0010000000001010#16, .nm, false, []⟩, ⟨"xor", "#i8,r0", 0b1100101000000000#16, .i, false, [.freg]⟩, ⟨"xor", "i8,r0", 0b1100101000000000#16, .i, false, [.freg]⟩]) (by decide +kernel) (by rfl), rfl, rfl, ⟨rfl, rfl⟩, fun _ => rfl, fun _ => rfl⟩
  · exact ⟨⟨"xor.b", "#i8,@(r0,gbr)", 0b1100111000000000#16, .i, false, [.freg]⟩,
      ⟨15, 15, 8, e⟩, parse_of (l := [⟨"xor.b", "#i8,@(r0,gbr)", 0b1100111000000000#16, .i, false, [.freg]⟩, ⟨"xor.b", "i8,@(r0,gbr)", 0b1100111000000000#16, .i, false, [.freg]⟩]) (by decide +kernel) (by rfl), rfl, rfl, ⟨rfl, rfl⟩, fun _ => rfl, fun _ => rfl⟩
  · exact ⟨⟨"rotl", "t", 0b0100000000000100#16, .n, false, []⟩,
      ⟨15, n, 0, .int 0⟩, parse_of (l := [⟨"rotl", "t", 0b0100000000000100#16, .n, false, []⟩]) (by decide +kernel) (rfl), rfl, rfl, ⟨rfl, rfl⟩, fun h => absurd rfl h, fun _ => rfl⟩
  · exact ⟨⟨"rotr", "t", 0b0100000000000101#16, .n, false, []⟩,
      ⟨15, n, 0, .int 0⟩, parse_of (l := [⟨"rotr", "t", 0b0100000000000101#16, .n, false, []⟩]) (by decide +kernel) (rfl), rfl, rfl, ⟨rfl, rfl⟩, fun h => absurd rfl h, fun _ => rfl⟩
  · exact ⟨⟨"rotcl", "t", 0b0100000000100100#16, .n, false, []⟩,
      ⟨15, n, 0, .int 0⟩, parse_of (l := [⟨"rotcl", "t", 0b0100000000100100#16, .n, false, []⟩]) (by decide +kernel) (rfl), rfl, rfl, ⟨rfl, rfl⟩, fun h => absurd rfl h, fun _ => rfl⟩
  · exact ⟨⟨"rotcr", "t", 0b0100000000100101#16, .n, false, []⟩,
      ⟨15, n, 0, .int 0⟩, parse_of (l := [⟨"rotcr", "t", 0b0100000000100101#16, .n, false, []⟩]) (by decide +kernel) (rfl), rfl, rfl, ⟨rfl, rfl⟩, fun h => absurd rfl h, fun _ => rfl⟩
  · exact ⟨⟨"shal", "t", 0b0100000000100000#16, .n, false, []⟩,
      ⟨15, n, 0, .int 0⟩, parse_of (l := [⟨"shal", "t", 0b0100000000100000#16, .n, false, []⟩]) (by decide +kernel) (rfl), rfl, rfl, ⟨rfl, rfl⟩, fun h => absurd rfl h, fun _ => rfl⟩
  · exact ⟨⟨"shar", "t", 0b0100000000100001#16, .n, false, []⟩,
      ⟨15, n, 0, .int 0⟩, parse_of (l := [⟨"shar", "t", 0b0100000000100001#16, .n, false, []⟩]) (by decide +kernel) (rfl), rfl, rfl, ⟨rfl, rfl⟩, fun h => absurd rfl h, fun _ => rfl⟩
  · exact ⟨⟨"shll", "t", 0b0100000000000000#16, .n, false, []⟩,
      ⟨15, n, 0, .int 0⟩, parse_of (l := [⟨"shll", "t", 0b0100000000000000#16, .n, false, []⟩]) (by decide +kernel) (rfl), rfl, rfl, ⟨rfl, rfl⟩, fun h => absurd rfl h, fun _ => rfl⟩
  · exact ⟨⟨"shlr", "t", 0b0100000000000001#16, .n, false, []⟩,
      ⟨15, n, 0, .int 0⟩, parse_of (l := [⟨"shlr", "t", 0b0100000000000001#16, .n, false, []⟩]) (by decide +kernel) (rfl), rfl, rfl, ⟨rfl, rfl⟩, fun h => absurd rfl h, fun _ => rfl⟩
  · exact ⟨⟨"shll2", "t", 0b0100000000001000#16, .n, false, []⟩,
      ⟨15, n, 0, .int 0⟩, parse_of (l := [⟨"shll2", "t", 0b0100000000001000#16, .n, false, []⟩]) (by decide +kernel) (rfl), rfl, rfl, ⟨rfl, rfl⟩, fun h => absurd rfl h, fun _ => rfl⟩
  · exact ⟨⟨"shlr2", "t", 0b0100000000001001#16, .n, false, []⟩,
      ⟨15, n, 0, .int 0⟩, parse_of (l := [⟨"shlr2", "t", 0b0100000000001001#16, .n, false, []⟩]) (by decide +kernel) (rfl), rfl, rfl, ⟨rfl, rfl⟩, fun h => absurd rfl h, fun _ => rfl⟩
  · exact ⟨⟨"shll8", "t", 0b0100000000011000#16, .n, false, []⟩,
      ⟨15, n, 0, .int 0⟩, parse_of (l := [⟨"shll8", "t", 0b0100000000011000#16, .n, false, []⟩]) (by decide +kernel) (rfl), rfl, rfl, ⟨rfl, rfl⟩, fun h => absurd rfl h, fun _ => rfl⟩
  · exact ⟨⟨"shlr8", "t", 0b0100000000011001#16, .n, false, []⟩,
      ⟨15, n, 0, .int 0⟩, parse_of (l := [⟨"shlr8", "t", 0b0100000000011001#16, .n, false, []⟩]) (by decide +kernel) (rfl), rfl, rfl, ⟨rfl, rfl⟩, fun h => absurd rfl h, fun _ => rfl⟩
  · exact ⟨⟨"shll16", "t", 0b0100000000101000#16, .n, false, []⟩,
      ⟨15, n, 0, .int 0⟩, parse_of (l := [⟨"shll16", "t", 0b0100000000101000#16, .n, false, []⟩]) (by decide +kernel) (rfl), rfl, rfl, ⟨rfl, rfl⟩, fun h => absurd rfl h, fun _ => rfl⟩
  · exact ⟨⟨"shlr16", "t", 0b0100000000101001#16, .n, false, []⟩,
      ⟨15, n, 0, .int 0⟩, parse_of (l := [⟨"shlr16", "t", 0b0100000000101001#16, .n, false, []⟩]) (by decide +kernel) (rfl), rfl, rfl, ⟨rfl, rfl⟩, fun h => absurd rfl h, fun _ => rfl⟩
  · exact ⟨⟨"bf", "i8", 0b1000101100000000#16, .d, false, [.imm16, .immrel, .immsigned]⟩,
      ⟨15, 15, 8, e⟩, parse_of (l := [⟨"bf", "i8", 0b1000101100000000#16, .d, false, [.imm16, .immrel, .immsigned]⟩]) (by decide +kernel) (rfl), rfl, rfl, ⟨rfl, rfl⟩, fun _ => rfl, fun _ => rfl⟩
  · exact ⟨⟨"bf/s", "i8", 0b1000111100000000#16, .d, true, [.imm16, .immrel, .immsigned, .delayed]⟩,
      ⟨15, 15, 8, e⟩, parse_of (l := [⟨"bf/s", "i8", 0b1000111100000000#16, .d, true, [.imm16, .immrel, .immsigned, .delayed]⟩]) (by decide +kernel) (rfl), rfl, rfl, ⟨rfl, rfl⟩, fun _ => rfl, fun _ => rfl⟩
  · exact ⟨⟨"bt", "i8", 0b1000100100000000#16, .d, false, [.imm16, .immrel, .immsigned]⟩,
      ⟨15, 15, 8, e⟩, parse_of (l := [⟨"bt", "i8", 0b1000100100000000#16, .d, false, [.imm16, .immrel, .immsigned]⟩]) (by decide +kernel) (rfl), rfl, rfl, ⟨rfl, rfl⟩, fun _ => rfl, fun _ => rfl⟩
  · exact ⟨⟨"bt/s", "i8", 0b1000110100000000#16, .d, true, [.imm16, .immrel, .immsigned, .delayed]⟩,
      ⟨15, 15, 8, e⟩, parse_of (l := [⟨"bt/s", "i8", 0b1000110100000000#16, .d, true, [.imm16, .immrel, .immsigned, .delayed]⟩]) (by decide +kernel) (rfl), rfl, rfl, ⟨rfl, rfl⟩, fun _ => rfl, fun _ => rfl⟩
  · exact ⟨⟨"bra", "i12", 0b1010000000000000#16, .d12, false, [.imm16, .immrel, .immsigned, .delayed]⟩,
      ⟨15, 15, 12, e⟩, parse_of (l := [⟨"bra", "i12", 0b1010000000000000#16, .d12, false, [.imm16, .immrel, .immsigned, .delayed]⟩]) (by decide +kernel) (rfl), rfl, rfl, ⟨rfl, rfl⟩, fun _ => rfl, fun _ => rfl⟩
  · exact ⟨⟨"bsr", "i12", 0b1011000000000000#16, .d12, false, [.imm16, .immrel, .immsigned]⟩,
      ⟨15, 15, 12, e⟩, parse_of (l := [⟨"bsr", "i12", 0b1011000000000000#16, .d12, false, [.imm16, .immrel, .immsigned]⟩]) (by decide +kernel) (rfl), rfl, rfl, ⟨rfl, rfl⟩, fun _ => rfl, fun _ => rfl⟩
  · exact ⟨⟨"braf", "s", 0b0000000000100011#16, .m, true, [.delayed]⟩,
      ⟨m, 15, 0, .int 0⟩, parse_of (l := [⟨"braf", "s", 0b0000000000100011#16, .m, true, [.delayed]⟩, ⟨"braf", "@s", 0b0000000000100011#16, .m, true, [.delayed]⟩]) (by decide +kernel) (by rcases m with _ | m <;> rfl), rfl, rfl, ⟨rfl, rfl⟩, fun h => absurd rfl h, fun _ => rfl⟩
  · exact ⟨⟨"bsrf", "s", 0b0000000000000011#16, .m, true, [.delayed]⟩,
      ⟨m, 15, 0, .int 0⟩, parse_of (l := [⟨"bsrf", "s", 0b0000000000000011#16, .m, true, [.delayed]⟩, ⟨"bsrf", "@s", 0b0000000000000011#16, .m, true, [.delayed]⟩]) (by decide +kernel) (by rcases m with _ | m <;> rfl), rfl, rfl, ⟨rfl, rfl⟩, fun h => absurd rfl h, fun _ => rfl⟩
  · exact ⟨⟨"jmp", "s", 0b0100000000101011#16, .m, false, [.delayed]⟩,
      ⟨m, 15, 0, .int 0⟩, parse_of (l := [⟨"jmp", "s", 0b0100000000101011#16, .m, false, [.delayed]⟩, ⟨"jmp", "@s", 0b0100000000101011#16, .m, false, [.delayed]⟩]) (by decide +kernel) (by rcases m with _ | m <;> rfl), rfl, rfl, ⟨rfl, rfl⟩, fun h => absurd rfl h, fun _ => rfl⟩
  · exact ⟨⟨"jsr", "s", 0b0100000000001011#16, .m, false, [.delayed]⟩,
      ⟨m, 15, 0, .int 0⟩, parse_of (l := [⟨"jsr", "s", 0b0100000000001011#16, .m, false, [.delayed]⟩, ⟨"jsr", "@s", 0b0100000000001011#16, .m, false, [.delayed]⟩]) (by decide +kernel) (by rcases m with _ | m <;> rfl), rfl, rfl, ⟨rfl, rfl⟩, fun h => absurd rfl h, fun _ => rfl⟩
  · exact ⟨⟨"rts", "", 0b0000000000001011#16, .none, false, [.delayed]⟩,
      ⟨15, 15, 0, .int 0⟩, parse_of (l := [⟨"rts", "", 0b0000000000001011#16, .none, false, [.delayed]⟩]) (by decide +kernel) (rfl), rfl, rfl, ⟨rfl, rfl⟩, fun h => absurd rfl h, fun _ => rfl⟩
  · exact ⟨⟨"clrt", "", 0b0000000000001000#16, .none, false, []⟩,
      ⟨15, 15, 0, .int 0⟩, parse_of (l := [⟨"clrt", "", 0b0000000000001000#16, .none, false, []⟩]) (by decide +kernel) (rfl), rfl, rfl, ⟨rfl, rfl⟩, fun h => absurd rfl h, fun _ => rfl⟩
  · exact ⟨⟨"clrmac", "", 0b0000000000101000#16, .none, false, []⟩,
      ⟨15, 15, 0, .int 0⟩, parse_of (l := [⟨"clrmac", "", 0b0000000000101000#16, .none, false, []⟩]) (by decide +kernel) (rfl), rfl, rfl, ⟨rfl, rfl⟩, fun h => absurd rfl h, fun _ => rfl⟩
  · exact ⟨⟨"ldc", "s,sr", 0b0100000000001110#16, .m, false, [.freg]⟩,
      ⟨m, 15, 0, .int 0⟩, parse_of (l := [⟨"ldc", "s,sr", 0b0100000000001110#16, .m, false, [.freg]⟩, ⟨"ldc", "s,gbr", 0b0100000000011110#16, .m, false, [.freg]⟩, ⟨"ldc", "s,vbr", 0b0100000000101110#16, .m, false, [.freg]⟩]) (by decide +kernel) (by rcases m with _ | m <;> rfl), rfl, rfl, ⟨rfl, rfl⟩, fun h => absurd rfl h, fun _ => rfl⟩
  · exact ⟨⟨"ldc", "s,gbr", 0b0100000000011110#16, .m, false, [.freg]⟩,
      ⟨m, 15, 0, .int 0⟩, parse_of (l := [⟨"ldc", "s,sr", 0b0100000000001110#16, .m, false, [.freg]⟩, ⟨"ldc", "s,gbr", 0b0100000000011110#16, .m, false, [.freg]⟩, ⟨"ldc", "s,vbr", 0b0100000000101110#16, .m, false, [.freg]⟩]) (by decide +kernel) (by rcases m with _ | m <;> rfl), rfl, rfl, ⟨rfl, rfl⟩, fun h => absurd rfl h, fun _ => rfl⟩
  · exact ⟨⟨"ldc", "s,vbr", 0b0100000000101110#16, .m, false, [.freg]⟩,
      ⟨m, 15, 0, .int 0⟩, parse_of (l := [⟨"ldc", "s,sr", 0b0100000000001110#16, .m, false, [.freg]⟩, ⟨"ldc", "s,gbr", 0b0100000000011110#16, .m, false, [.freg]⟩, ⟨"ldc", "s,vbr", 0b0100000000101110#16, .m, false, [.freg]⟩]) (by decide +kernel) (by rcases m with _ | m <;> rfl), rfl, rfl, ⟨rfl, rfl⟩, fun h => absurd rfl h, fun _ => rfl⟩
  · exact ⟨⟨"ldc.l", "@s+,sr", 0b0100000000000111#16, .m, false, [.freg]⟩,
      ⟨m, 15, 0, .int 0⟩, parse_of (l := [⟨"ldc.l", "@s+,sr", 0b0100000000000111#16, .m, false, [.freg]⟩, ⟨"ldc.l", "@s+,gbr", 0b0100000000010111#16, .m, false, [.freg]⟩, ⟨"ldc.l", "@s+,vbr", 0b0100000000100111#16, .m, false, [.freg]⟩]) (by decide +kernel) (by rcases m with _ | m <;> rfl), rfl, rfl, ⟨rfl, rfl⟩, fun h => absurd rfl h, fun _ => rfl⟩
  · exact ⟨⟨"ldc.l", "@s+,gbr", 0b0100000000010111#16, .m, false, [.freg]⟩,
      ⟨m, 15, 0, .int 0⟩, parse_of (l := [⟨"ldc.l", "@s+,sr", 0b0100000000000111#16, .m, false, [.freg]⟩, ⟨"ldc.l", "@s+,gbr", 0b0100000000010111#16, .m, false, [.freg]⟩, ⟨"ldc.l", "@s+,vbr", 0b0100000000100111#16, .m, false, [.freg]⟩]) (by decide +kernel) (by rcases m with _ | m <;> rfl), rfl, rfl, ⟨rfl, rfl⟩, fun h => absurd rfl h, fun _ => rfl⟩
  · exact ⟨⟨"ldc.l", "@s+,vbr", 0b0100000000100111#16, .m, false, [.freg]⟩,
      ⟨m, 15, 0, .int 0⟩, parse_of (l := [⟨"ldc.l", "@s+,sr", 0b0100000000000111#16, .m, false, [.freg]⟩, ⟨"ldc.l", "@s+,gbr", 0b0100000000010111#16, .m, false, [.freg]⟩, ⟨"ldc.l", "@s+,vbr", 0b0100000000100111#16, .m, false, [.freg]⟩]) (by decide +kernel) (by rcases m with _ | m <;> rfl), rfl, rfl, ⟨rfl, rfl⟩, fun h => absurd rfl h, fun _ => rfl⟩
  · exact ⟨⟨"lds", "s,mach", 0b0100000000001010#16, .m, false, [.freg]⟩,
      ⟨m, 15, 0, .int 0⟩, parse_of (l := [⟨"lds", "s,mach", 0b0100000000001010#16, .m, false, [.freg]⟩, ⟨"lds", "s,macl", 0b0100000000011010#16, .m, false, [.freg]⟩, ⟨"lds", "s,pr", 0b0100000000101010#16, .m, false, [.freg]⟩]) (by decide +kernel) (by rcases m with _ | m <;> rfl), rfl, rfl, ⟨rfl, rfl⟩, fun h => absurd rfl h, fun _ => rfl⟩
  · exact ⟨⟨"lds", "s,macl", 0b0100000000011010#16, .m, false, [.freg]⟩,
      ⟨m, 15, 0, .int 0⟩, parse_of (l := [⟨"lds", "s,mach", 0b0100000000001010#16, .m, false, [.freg]⟩, ⟨"lds", "s,macl", 0b0100000000011010#16, .m, false, [.freg]⟩, ⟨"lds", "s,pr", 0b0100000000101010#16, .m, false, [.freg]⟩]) (by decide +kernel) (by rcases m with _ | m <;> rfl), rfl, rfl, ⟨rfl, rfl⟩, fun h => absurd rfl h, fun _ => rfl⟩
  · exact ⟨⟨"lds", "s,pr", 0b0100000000101010#16, .m, false, [.freg]⟩,
      ⟨m, 15, 0, .int 0⟩, parse_of (l := [⟨"lds", "s,mach", 0b0100000000001010#16, .m, false, [.freg]⟩, ⟨"lds", "s,macl", 0b0100000000011010#16, .m, false, [.freg]⟩, ⟨"lds", "s,pr", 0b0100000000101010#16, .m, false, [.freg]⟩]) (by decide +kernel) (by rcases m with _ | m <;> rfl), rfl, rfl, ⟨rfl, rfl⟩, fun h => absurd rfl h, fun _ => rfl⟩
  · exact ⟨⟨"lds.l", "@s+,mach", 0b0100000000000110#16, .m, false, [.freg]⟩,
      ⟨m, 15, 0, .int 0⟩, parse_of (l := [⟨"lds.l", "@s+,mach", 0b0100000000000110#16, .m, false, [.freg]⟩, ⟨"lds.l", "@s+,macl", 0b0100000000010110#16, .m, false, [.freg]⟩, ⟨"lds.l", "@s+,pr", 0b0100000000100110#16, .m, false, [.freg]⟩]) (by decide +kernel) (by rcases m with _ | m <;> rfl), rfl, rfl, ⟨rfl, rfl⟩, fun h => absurd rfl h, fun _ => rfl⟩
  · exact ⟨⟨"lds.l", "@s+,macl", 0b0100000000010110#16, .m, false, [.freg]⟩,
      ⟨m, 15, 0, .int 0⟩, parse_of (l := [⟨"lds.l", "@s+,mach", 0b0100000000000110#16, .m, false, [.freg]⟩, ⟨"lds.l", "@s+,macl", 0b0100000000010110#16, .m, false, [.freg]⟩, ⟨"lds.l", "@s+,pr", 0b0100000000100110#16, .m, false, [.freg]⟩]) (by decide +kernel) (by rcases m with _ | m <;> rfl), rfl, rfl, ⟨rfl, rfl⟩, fun h => absurd rfl h, fun _ => rfl⟩
  · exact ⟨⟨"lds.l", "@s+,pr", 0b0100000000100110#16, .m, false, [.freg]⟩,
      ⟨m, 15, 0, .int 0⟩, parse_of (l := [⟨"lds.l", "@s+,mach", 0b0100000000000110#16, .m, false, [.freg]⟩, ⟨"lds.l", "@s+,macl", 0b0100000000010110#16, .m, false, [.freg]⟩, ⟨"lds.l", "@s+,pr", 0b0100000000100110#16, .m, false, [.freg]⟩]) (by decide +kernel) (by rcases m with _ | m <;> rfl), rfl, rfl, ⟨rfl, rfl⟩, fun h => absurd rfl h, fun _ => rfl⟩
  · exact ⟨⟨"nop", "", 0b0000000000001001#16, .none, false, []⟩,
      ⟨15, 15, 0, .int 0⟩, parse_of (l := [⟨"nop", "", 0b0000000000001001#16, .none, false, []⟩]) (by decide +kernel) (rfl), rfl, rfl, ⟨rfl, rfl⟩, fun h => absurd rfl h, fun _ => rfl⟩
  · exact ⟨⟨"rte", "", 0b0000000000101011#16, .none, false, [.delayed]⟩,
      ⟨15, 15, 0, .int 0⟩, parse_of (l := [⟨"rte", "", 0b0000000000101011#16, .none, false, [.delayed]⟩]) (by decide +kernel) (rfl), rfl, rfl, ⟨rfl, rfl⟩, fun h => absurd rfl h, fun _ => rfl⟩
  · exact ⟨⟨"sett", "", 0b0000000000011000#16, .none, false, []⟩,
      ⟨15, 15, 0, .int 0⟩, parse_of (l := [⟨"sett", "", 0b0000000000011000#16, .none, false, []⟩]) (by decide +kernel) (rfl), rfl, rfl, ⟨rfl, rfl⟩, fun h => absurd rfl h, fun _ => rfl⟩
  · exact ⟨⟨"sleep", "", 0b0000000000011011#16, .none, false, []⟩,
      ⟨15, 15, 0, .int 0⟩, parse_of (l := [⟨"sleep", "", 0b0000000000011011#16, .none, false, []⟩]) (by decide +kernel) (rfl), rfl, rfl, ⟨rfl, rfl⟩, fun h => absurd rfl h, fun _ => rfl⟩
  · exact ⟨⟨"stc", "sr,t", 0b0000000000000010#16, .n, false, [.freg]⟩,
      ⟨15, n, 0, .int 0⟩, parse_of (l := [⟨"stc", "sr,t", 0b0000000000000010#16, .n, false, [.freg]⟩, ⟨"stc", "gbr,t", 0b0000000000010010#16, .n, false, [.freg]⟩, ⟨"stc", "vbr,t", 0b0000000000100010#16, .n, false, [.freg]⟩]) (by decide +kernel) (by rcases n with _ | n <;> rfl), rfl, rfl, ⟨rfl, rfl⟩, fun h => absurd rfl h, fun _ => rfl⟩
  · exact ⟨⟨"stc", "gbr,t", 0b0000000000010010#16, .n, false, [.freg]⟩,
      ⟨15, n, 0, .int 0⟩, parse_of (l := [⟨"stc", "sr,t", 0b0000000000000010#16, .n, false, [.freg]⟩, ⟨"stc", "gbr,t", 0b0000000000010010#16, .n, false, [.freg]⟩, ⟨"stc", "vbr,t", 0b0000000000100010#16, .n, false, [.freg]⟩]) (by decide +kernel) (by rcases n with _ | n <;> rfl), rfl, rfl, ⟨rfl, rfl⟩, fun h => absurd rfl h, fun _ => rfl⟩
  · exact ⟨⟨"stc", "vbr,t", 0b0000000000100010#16, .n, false, [.freg]⟩,
      ⟨15, n, 0, .int 0⟩, parse_of (l := [⟨"stc", "sr,t", 0b0000000000000010#16, .n, false, [.freg]⟩, ⟨"stc", "gbr,t", 0b0000000000010010#16, .n, false, [.freg]⟩, ⟨"stc", "vbr,t", 0b0000000000100010#16, .n, false, [.freg]⟩]) (by decide +kernel) (by rcases n with _ | n <;> rfl), rfl, rfl, ⟨rfl, rfl⟩, fun h => absurd rfl h, fun _ => rfl⟩
  · exact ⟨⟨"stc.l", "sr,@-t", 0b0100000000000011#16, .n, false, [.freg]⟩,
      ⟨15, n, 0, .int 0⟩, parse_of (l := [⟨"stc.l", "sr,@-t", 0b0100000000000011#16, .n, false, [.freg]⟩, ⟨"stc.l", "gbr,@-t", 0b0100000000010011#16, .n, false, [.freg]⟩, ⟨"stc.l", "vbr,@-t", 0b0100000000100011#16, .n, false, [.freg]⟩]) (by decide +kernel) (by rcases n with _ | n <;> rfl), rfl, rfl, ⟨rfl, rfl⟩, fun h => absurd rfl h, fun _ => rfl⟩
  · exact ⟨⟨"stc.l", "gbr,@-t", 0b0100000000010011#16, .n, false, [.freg]⟩,
      ⟨15, n, 0, .int 0⟩, parse_of (l := [⟨"stc.l", "sr,@-t", 0b0100000000000011#16, .n, false, [.freg]⟩, ⟨"stc.l", "gbr,@-t", 0b0100000000010011#16, .n, false, [.freg]⟩, ⟨"stc.l", "vbr,@-t", 0b0100000000100011#16, .n, false, [.freg]⟩]) (by decide +kernel) (by rcases n with _ | n <;> rfl), rfl, rfl, ⟨rfl, rfl⟩, fun h => absurd rfl h, fun _ => rfl⟩
  · exact ⟨⟨"stc.l", "vbr,@-t", 0b0100000000100011#16, .n, false, [.freg]⟩,
      ⟨15, n, 0, .int 0⟩, parse_of (l := [⟨"stc.l", "sr,@-t", 0b0100000000000011#16, .n, false, [.freg]⟩, ⟨"stc.l", "gbr,@-t", 0b0100000000010011#16, .n, false, [.freg]⟩, ⟨"stc.l", "vbr,@-t", 0b0100000000100011#16, .n, false, [.freg]⟩]) (by decide +kernel) (by rcases n with _ | n <;> rfl), rfl, rfl, ⟨rfl, rfl⟩, fun h => absurd rfl h, fun _ => rfl⟩
  · exact ⟨⟨"sts", "mach,t", 0b0000000000001010#16, .n, false, [.freg]⟩,
      ⟨15, n, 0, .int 0⟩, parse_of (l := [⟨"sts", "mach,t", 0b0000000000001010#16, .n, false, [.freg]⟩, ⟨"sts", "macl,t", 0b0000000000011010#16, .n, false, [.freg]⟩, ⟨"sts", "pr,t", 0b0000000000101010#16, .n, false, [.freg]⟩]) (by decide +kernel) (by rcases n with _ | n <;> rfl), rfl, rfl, ⟨rfl, rfl⟩, fun h => absurd rfl h, fun _ => rfl⟩
  · exact ⟨⟨"sts", "macl,t", 0b0000000000011010#16, .n, false, [.freg]⟩,
      ⟨15, n, 0, .int 0⟩, parse_of (l := [⟨"sts", "mach,t", 0b0000000000001010#16, .n, false, [.freg]⟩, ⟨"sts", "macl,t", 0b0000000000011010#16, .n, false, [.freg]⟩, ⟨"sts", "pr,t", 0b0000000000101010#16, .n, false, [.freg]⟩]) (by decide +kernel) (by rcases n with _ | n <;> rfl), rfl, rfl, ⟨rfl, rfl⟩, fun h => absurd rfl h, fun _ => rfl⟩
  · exact ⟨⟨"sts", "pr,t", 0b0000000000101010#16, .n, false, [.freg]⟩,
      ⟨15, n, 0, .int 0⟩, parse_of (l := [⟨"sts", "mach,t", 0b0000000000001010#16, .n, false, [.freg]⟩, ⟨"sts", "macl,t", 0b0000000000011010#16, .n, false, [.freg]⟩, ⟨"sts", "pr,t", 0b0000000000101010#16, .n, false, [.freg]⟩]) (by decide +kernel) (by rcases n with _ | n <;> rfl), rfl, rfl, ⟨rfl, rfl⟩, fun h => absurd rfl h, fun _ => rfl⟩
  · exact ⟨⟨"sts.l", "mach,@-t", 0b0100000000000010#16, .n, false, [.freg]⟩,
      ⟨15, n, 0, .int 0⟩, parse_of (l := [⟨"sts.l", "mach,@-t", 0b0100000000000010#16, .n, false, [.freg]⟩, ⟨"sts.l", "macl,@-t", 0b0100000000010010#16, .n, false, [.freg]⟩, ⟨"sts.l", "pr,@-t", 0b0100000000100010#16, .n, false, [.freg]⟩]) (by decide +kernel) (by rcases n with _ | n <;> rfl), rfl, rfl, ⟨rfl, rfl⟩, fun h => absurd rfl h, fun _ => rfl⟩
  · exact ⟨⟨"sts.l", "macl,@-t", 0b0100000000010010#16, .n, false, [.freg]⟩,
      ⟨15, n, 0, .int 0⟩, parse_of (l := [⟨"sts.l", "mach,@-t", 0b0100000000000010#16, .n, false, [.freg]⟩, ⟨"sts.l", "macl,@-t", 0b0100000000010010#16, .n, false, [.freg]⟩, ⟨"sts.l", "pr,@-t", 0b0100000000100010#16, .n, false, [.freg]⟩]) (by decide +kernel) (by rcases n with _ | n <;> rfl), rfl, rfl, ⟨rfl, rfl⟩, fun h => absurd rfl h, fun _ => rfl⟩
  · exact ⟨⟨"sts.l", "pr,@-t", 0b0100000000100010#16, .n, false, [.freg]⟩,
      ⟨15, n, 0, .int 0⟩, parse_of (l := [⟨"sts.l", "mach,@-t", 0b0100000000000010#16, .n, false, [.freg]⟩, ⟨"sts.l", "macl,@-t", 0b0100000000010010#16, .n, false, [.freg]⟩, ⟨"sts.l", "pr,@-t", 0b0100000000100010#16, .n, false, [.freg]⟩]) (by decide +kernel) (by rcases n with _ | n <;> rfl), rfl, rfl, ⟨rfl, rfl⟩, fun h => absurd rfl h, fun _ => rfl⟩
  · exact ⟨⟨"trapa", "#i8", 0b1100001100000000#16, .i, false, []⟩,
      ⟨15, 15, 8, e⟩, parse_of (l := [⟨"trapa", "#i8", 0b1100001100000000#16, .i, false, []⟩]) (by decide +kernel) (rfl), rfl, rfl, ⟨rfl, rfl⟩, fun _ => rfl, fun _ => rfl⟩

end Armips.Sh
