import Verif.Model.Arm
/-!
# THUMB instructions

Models `Archs/ARM/CThumbInstruction.cpp` (`Validate`, `Encode`, `setPoolAddress`) and the table `Archs/ARM/ThumbOpcodes.cpp`.

* An `int` is a `BitVec 32`. Shifts and masks on it wrap.
* `Operands` is what the parser stored in `ThumbOpcodeVariables`. A member that the parser did not set has an arbitrary
  value here; in particular `stale` is the content of `Vars.Immediate` of an instruction without an immediate.
* After an error the members keep the values of an earlier pass; since nothing is written in that case the model writes
  zeros.
* Not modelled: `writeTempData` and `FormatInstruction`, which only produce the listing.
-/
namespace Armips.Thumb
open Armips.Arm (fld orIf evalInt failWith)

/-- `ThumbOpcodes.h:23-40`. -/
inductive Flag
  | arm9 | immediate | register | d | s | pool | o | word | halfword | rlist | exchange | branch | long | pcr | ds | pcadd
  | addsub | rightshift
  deriving DecidableEq, Repr

/-- `ThumbOpcodes.h:42-50` `tThumbOpcode`. `type` is the number in `THUMB_TYPE…`. -/
structure Op where
  name : String
  mask : String
  encoding : BitVec 32
  type : Nat
  flags : List Flag
  deriving DecidableEq, Repr

/-- `Opcode.flags & THUMB_…`. -/
def Op.has (op : Op) (f : Flag) : Bool := decide (f ∈ op.flags)

/-- `ThumbOpcodes.cpp:23-150` `ThumbOpcodes`, generated from the source text. -/
def opcodes : List Op := [
  ⟨"lsl", "d,s,/#i\x05", 0x0000#32, 1, [.immediate]⟩,
  ⟨"lsl", "d,/#i\x05", 0x0000#32, 1, [.immediate, .ds]⟩,
  ⟨"asl", "d,s,/#i\x05", 0x0000#32, 1, [.immediate]⟩,
  ⟨"asl", "d,/#i\x05", 0x0000#32, 1, [.immediate, .ds]⟩,
  ⟨"lsr", "d,s,/#i\x05", 0x0800#32, 1, [.immediate, .rightshift]⟩,
  ⟨"lsr", "d,/#i\x05", 0x0800#32, 1, [.immediate, .rightshift, .ds]⟩,
  ⟨"asr", "d,s,/#i\x05", 0x1000#32, 1, [.immediate, .rightshift]⟩,
  ⟨"asr", "d,/#i\x05", 0x1000#32, 1, [.immediate, .rightshift, .ds]⟩,
  ⟨"add", "d,s,n", 0x1800#32, 2, [.register]⟩,
  ⟨"add", "d,n", 0x1800#32, 2, [.register, .ds]⟩,
  ⟨"sub", "d,s,n", 0x1A00#32, 2, [.register]⟩,
  ⟨"sub", "d,n", 0x1A00#32, 2, [.register, .ds]⟩,
  ⟨"add", "d,s,/#i\x03", 0x1C00#32, 2, [.immediate, .addsub]⟩,
  ⟨"sub", "d,s,/#i\x03", 0x1E00#32, 2, [.immediate, .addsub]⟩,
  ⟨"mov", "d,s", 0x1C00#32, 2, []⟩,
  ⟨"mov", "d,/#i\x08", 0x2000#32, 3, [.immediate]⟩,
  ⟨"cmp", "d,/#i\x08", 0x2800#32, 3, [.immediate]⟩,
  ⟨"add", "d,/#i\x08", 0x3000#32, 3, [.immediate, .addsub]⟩,
  ⟨"sub", "d,/#i\x08", 0x3800#32, 3, [.immediate, .addsub]⟩,
  ⟨"and", "d,s", 0x4000#32, 4, [.register]⟩,
  ⟨"eor", "d,s", 0x4040#32, 4, [.register]⟩,
  ⟨"xor", "d,s", 0x4040#32, 4, [.register]⟩,
  ⟨"lsl", "d,s", 0x4080#32, 4, [.register]⟩,
  ⟨"lsr", "d,s", 0x40C0#32, 4, [.register]⟩,
  ⟨"asr", "d,s", 0x4100#32, 4, [.register]⟩,
  ⟨"adc", "d,s", 0x4140#32, 4, [.register]⟩,
  ⟨"sbc", "d,s", 0x4180#32, 4, [.register]⟩,
  ⟨"ror", "d,s", 0x41C0#32, 4, [.register]⟩,
  ⟨"tst", "d,s", 0x4200#32, 4, [.register]⟩,
  ⟨"neg", "d,s", 0x4240#32, 4, [.register]⟩,
  ⟨"cmp", "d,s", 0x4280#32, 4, [.register]⟩,
  ⟨"cmn", "d,s", 0x42C0#32, 4, [.register]⟩,
  ⟨"orr", "d,s", 0x4300#32, 4, [.register]⟩,
  ⟨"mul", "d,s", 0x4340#32, 4, [.register]⟩,
  ⟨"bic", "d,s", 0x4380#32, 4, [.register]⟩,
  ⟨"mvn", "d,s", 0x43C0#32, 4, [.register]⟩,
  ⟨"add", "D,S", 0x4400#32, 5, [.d, .s]⟩,
  ⟨"cmp", "D,S", 0x4500#32, 5, [.d, .s]⟩,
  ⟨"mov", "D,S", 0x4600#32, 5, [.d, .s]⟩,
  ⟨"nop", "", 0x46C0#32, 5, []⟩,
  ⟨"bx", "S", 0x4700#32, 5, [.s]⟩,
  ⟨"blx", "S", 0x4780#32, 5, [.s, .arm9]⟩,
  ⟨"ldr", "d,[r\x0f]", 0x4800#32, 6, []⟩,
  ⟨"ldr", "d,[r\x0f,/#i\x08]", 0x4800#32, 6, [.immediate, .word]⟩,
  ⟨"ldr", "d,[/#I\x20]", 0x4800#32, 6, [.immediate, .pcr]⟩,
  ⟨"ldr", "d,=/#I\x20", 0x4800#32, 6, [.immediate, .pool]⟩,
  ⟨"str", "d,[s,o]", 0x5000#32, 7, [.d, .s, .o]⟩,
  ⟨"strb", "d,[s,o]", 0x5400#32, 7, [.d, .s, .o]⟩,
  ⟨"ldr", "d,[s,o]", 0x5800#32, 7, [.d, .s, .o]⟩,
  ⟨"ldrb", "d,[s,o]", 0x5C00#32, 7, [.d, .s, .o]⟩,
  ⟨"strh", "d,[s,o]", 0x5200#32, 8, [.d, .s, .o]⟩,
  ⟨"ldsb", "d,[s,o]", 0x5600#32, 8, [.d, .s, .o]⟩,
  ⟨"ldrsb", "d,[s,o]", 0x5600#32, 8, [.d, .s, .o]⟩,
  ⟨"ldrh", "d,[s,o]", 0x5A00#32, 8, [.d, .s, .o]⟩,
  ⟨"ldsh", "d,[s,o]", 0x5E00#32, 8, [.d, .s, .o]⟩,
  ⟨"ldrsh", "d,[s,o]", 0x5E00#32, 8, [.d, .s, .o]⟩,
  ⟨"str", "d,[s,/#i\x05]", 0x6000#32, 9, [.d, .s, .immediate, .word]⟩,
  ⟨"str", "d,[s]", 0x6000#32, 9, [.d, .s]⟩,
  ⟨"ldr", "d,[s,/#i\x05]", 0x6800#32, 9, [.d, .s, .immediate, .word]⟩,
  ⟨"ldr", "d,[s]", 0x6800#32, 9, [.d, .s]⟩,
  ⟨"strb", "d,[s,/#i\x05]", 0x7000#32, 9, [.d, .s, .immediate]⟩,
  ⟨"strb", "d,[s]", 0x7000#32, 9, [.d, .s]⟩,
  ⟨"ldrb", "d,[s,/#i\x05]", 0x7800#32, 9, [.d, .s, .immediate]⟩,
  ⟨"ldrb", "d,[s]", 0x7800#32, 9, [.d, .s]⟩,
  ⟨"strh", "d,[s,/#i\x05]", 0x8000#32, 10, [.d, .s, .immediate, .halfword]⟩,
  ⟨"strh", "d,[s]", 0x8000#32, 10, [.d, .s]⟩,
  ⟨"ldrh", "d,[s,/#i\x05]", 0x8800#32, 10, [.d, .s, .immediate, .halfword]⟩,
  ⟨"ldrh", "d,[s]", 0x8800#32, 10, [.d, .s]⟩,
  ⟨"str", "d,[r\x0d,/#i\x08]", 0x9000#32, 11, [.d, .immediate, .word]⟩,
  ⟨"str", "d,[r\x0d]", 0x9000#32, 11, [.d]⟩,
  ⟨"ldr", "d,[r\x0d,/#i\x08]", 0x9800#32, 11, [.d, .immediate, .word]⟩,
  ⟨"ldr", "d,[r\x0d]", 0x9800#32, 11, [.d]⟩,
  ⟨"add", "d,r\x0f,/#i\x08", 0xA000#32, 12, [.d, .immediate, .word]⟩,
  ⟨"add", "d,=/#i\x20", 0xA000#32, 12, [.d, .immediate, .pcr]⟩,
  ⟨"add", "d,r\x0d,/#i\x08", 0xA800#32, 12, [.d, .immediate, .word]⟩,
  ⟨"add", "r\x0d,/#i\x07", 0xB000#32, 13, [.immediate, .word, .addsub]⟩,
  ⟨"sub", "r\x0d,/#i\x07", 0xB080#32, 13, [.immediate, .word, .addsub]⟩,
  ⟨"add", "r\x0d,r\x0d,/#i\x07", 0xB000#32, 13, [.immediate, .word, .addsub]⟩,
  ⟨"sub", "r\x0d,r\x0d,/#i\x07", 0xB080#32, 13, [.immediate, .word, .addsub]⟩,
  ⟨"push", "/{R\xff\x40/}", 0xB400#32, 14, [.rlist]⟩,
  ⟨"pop", "/{R\xff\x80/}", 0xBC00#32, 14, [.rlist]⟩,
  ⟨"stmia", "/[d/]!,/{R\xff\x00/}", 0xC000#32, 15, [.d, .rlist]⟩,
  ⟨"ldmia", "/[d/]!,/{R\xff\x00/}", 0xC800#32, 15, [.d, .rlist]⟩,
  ⟨"beq", "/#I\x08", 0xD000#32, 16, [.immediate, .branch]⟩,
  ⟨"bne", "/#I\x08", 0xD100#32, 16, [.immediate, .branch]⟩,
  ⟨"bcs", "/#I\x08", 0xD200#32, 16, [.immediate, .branch]⟩,
  ⟨"bhs", "/#I\x08", 0xD200#32, 16, [.immediate, .branch]⟩,
  ⟨"bcc", "/#I\x08", 0xD300#32, 16, [.immediate, .branch]⟩,
  ⟨"blo", "/#I\x08", 0xD300#32, 16, [.immediate, .branch]⟩,
  ⟨"bmi", "/#I\x08", 0xD400#32, 16, [.immediate, .branch]⟩,
  ⟨"bpl", "/#I\x08", 0xD500#32, 16, [.immediate, .branch]⟩,
  ⟨"bvs", "/#I\x08", 0xD600#32, 16, [.immediate, .branch]⟩,
  ⟨"bvc", "/#I\x08", 0xD700#32, 16, [.immediate, .branch]⟩,
  ⟨"bhi", "/#I\x08", 0xD800#32, 16, [.immediate, .branch]⟩,
  ⟨"bls", "/#I\x08", 0xD900#32, 16, [.immediate, .branch]⟩,
  ⟨"bge", "/#I\x08", 0xDA00#32, 16, [.immediate, .branch]⟩,
  ⟨"blt", "/#I\x08", 0xDB00#32, 16, [.immediate, .branch]⟩,
  ⟨"bgt", "/#I\x08", 0xDC00#32, 16, [.immediate, .branch]⟩,
  ⟨"ble", "/#I\x08", 0xDD00#32, 16, [.immediate, .branch]⟩,
  ⟨"swi", "/#i\x08", 0xDF00#32, 17, [.immediate]⟩,
  ⟨"bkpt", "/#i\x08", 0xBE00#32, 17, [.immediate, .arm9]⟩,
  ⟨"b", "/#I\x0b", 0xE000#32, 18, [.immediate, .branch]⟩,
  ⟨"bl", "r\x0e", 0xF800#32, 19, []⟩,
  ⟨"bl", "r\x0e+/#I\x0b", 0xF800#32, 19, [.immediate, .halfword]⟩,
  ⟨"blh", "/#I\x0b", 0xF800#32, 19, [.immediate, .halfword]⟩,
  ⟨"bl", "/#I\x16", 0xF000#32, 19, [.immediate, .branch, .long]⟩,
  ⟨"blx", "/#I\x16", 0xF000#32, 19, [.immediate, .arm9, .exchange, .branch, .long]⟩,
  ⟨"bl", "/#I\x16", 0xF800#32, 19, [.immediate, .branch, .long]⟩,
  ⟨"blx", "/#I\x16", 0xF800#32, 19, [.immediate, .arm9, .exchange, .branch, .long]⟩]

/-- `CThumbInstruction.h:7-20` `ThumbOpcodeVariables` as set by the parser. -/
structure Operands where
  rd : Nat
  rs : Nat
  rn : Nat
  ro : Nat
  imm : Expr
  bitLen : Nat
  rlist : Nat
  stale : BitVec 32

/-- Members set by `Validate`: `Vars.Immediate`, `Vars.NewEncoding` (with `UseNewEncoding`) and whether a pool value was
requested. -/
structure Imm where
  value : BitVec 32
  encoding : Option (BitVec 32) := none
  pool : Bool := false
  deriving DecidableEq, Repr

/-- `CThumbInstruction.cpp:80-109` the branch for `THUMB_BRANCH`. -/
def immBranch (op : Op) (bitLen : Nat) (v : BitVec 32) (ramPos : Int) : Except String (BitVec 32) :=
  if op.has .exchange && decide (v &&& 3#32 ≠ 0#32) then .error "Branch target must be word aligned"
  else if !op.has .exchange && decide (v &&& 1#32 ≠ 0#32) then .error "Branch target must be halfword aligned"
  else
    let num := BitVec.ofInt 32 (v.toInt - ramPos - 4)
    if num.toInt ≥ 2 ^ bitLen ∨ num.toInt < -2 ^ bitLen then .error "Branch target out of range"
    else if op.has .exchange then .ok (num.sshiftRight 1 + (num.sshiftRight 1 &&& 1#32))
    else .ok (num.sshiftRight 1)

/-- `CThumbInstruction.cpp:25`, `137`: the distance from the program counter, of which one bit is cleared. -/
def pcOffset (ramPos address : Int) : BitVec 32 :=
  BitVec.ofInt 32 (address - (BitVec.ofInt 64 (ramPos + 4) &&& 0xFFFFFFFD#64).toInt)

/-- `CThumbInstruction.cpp:129-144` the branch for `THUMB_PCR`. -/
def immPcr (v : BitVec 32) (ramPos : Int) : Except String (BitVec 32) :=
  if v &&& 3#32 ≠ 0#32 then .error "PC relative address must be word aligned"
  else
    let pos := pcOffset ramPos v.toInt
    if pos.toInt < 0 ∨ pos.toInt > 1020 then .error "PC relative address out of range" else .ok (pos.sshiftRight 2)

/-- `CThumbInstruction.cpp:80-144` the chain of cases. -/
def immCases (op : Op) (bitLen : Nat) (v : BitVec 32) (ramPos : Int) : Except String (BitVec 32) :=
  if op.has .branch then immBranch op bitLen v ramPos
  else if op.has .word then
    if v &&& 3#32 ≠ 0#32 then .error "Immediate value must be a multiple of 4" else .ok (v.sshiftRight 2)
  else if op.has .halfword then
    if v &&& 1#32 ≠ 0#32 then .error "Immediate value must be a multiple of 2" else .ok (v.sshiftRight 1)
  else if op.has .pool then .ok v
  else if op.has .pcr then immPcr v ramPos
  else .ok v

/-- `CThumbInstruction.cpp:152-165` the opcode for a negative constant. -/
def negated (op : Op) : Option (BitVec 32) :=
  match op.type with
  | 2 => some (op.encoding ^^^ 0x0200#32)
  | 3 => some (op.encoding ^^^ 0x0800#32)
  | 13 => some (op.encoding ^^^ 0x0080#32)
  | _ => none

/-- `CThumbInstruction.cpp:146-172` `THUMB_ADDSUB_IMMEDIATE`. -/
def addSub (op : Op) (bitLen : Nat) (v : BitVec 32) : BitVec 32 × Option (BitVec 32) :=
  if op.has .addsub && decide (-(2 ^ bitLen - 1 : Int) ≤ v.toInt ∧ v.toInt < 0) then
    match negated op with
    | some enc => (-v, some enc)
    | none => (v, none)
  else (v, none)

/-- `CThumbInstruction.cpp:174-195` the last check. -/
def checkRange (op : Op) (bitLen : Nat) (v : BitVec 32) : Except String (BitVec 32) :=
  if op.type = 1 then
    if v.toInt < 0 ∨ v.toInt > (if op.has .rightshift then 32 else 31) then .error "Shift amount out of range" else .ok v
  else if op.has .branch then .ok (v &&& BitVec.ofNat 32 (2 ^ bitLen - 1))
  else if !(op.has .pool || op.has .pcr) then
    if v.toInt < 0 ∨ v.toInt > 2 ^ bitLen - 1 then .error "Immediate value out of range" else .ok v
  else .ok v

/-- `CThumbInstruction.cpp:80-195` processing of an immediate with the given (truncated) value. -/
def immediate (op : Op) (bitLen : Nat) (v : BitVec 32) (ramPos : Int) : Except String Imm :=
  match immCases op bitLen v ramPos with
  | .error e => .error e
  | .ok v1 =>
    match checkRange op bitLen (addSub op bitLen v1).1 with
    | .error e => .error e
    | .ok v2 => .ok { value := v2, encoding := (addSub op bitLen v1).2, pool := !op.has .branch && !op.has .word && !op.has .halfword && op.has .pool }

/-- `CThumbInstruction.cpp:46-49`: `rs` after `THUMB_DS`. -/
def rsOf (op : Op) (o : Operands) : Nat := if op.has .ds then o.rd else o.rs

/-- `CThumbInstruction.cpp:54-73` the value of the immediate as an `int`. -/
def vValue (E : Env) (c : Ctx) (op : Op) (e : Expr) : Ev (Except Bool (BitVec 32)) := do
  match ← e.eval E.host (E.funcs .arm) c with
  | .int v => pure (.ok (BitVec.ofInt 32 v))
  | .float v =>
    if !op.has .pool then failWith false "Invalid expression type"
    else pure (.ok (BitVec.ofInt 32 (E.floatBits v)))
  | _ => failWith false "Invalid expression type"

/-- `CThumbInstruction.cpp:51-197` the immediate. -/
def vImm (E : Env) (c : Ctx) (op : Op) (o : Operands) : Ev (Except Bool Imm) :=
  if op.has .immediate then do
    match ← vValue E c op o.imm with
    | .error b => pure (.error b)
    | .ok v =>
      match immediate op o.bitLen v c.virtualAddress with
      | .error t => failWith true t
      | .ok m => pure (.ok m)
  else pure (.ok { value := o.stale })

/-- `CThumbInstruction.cpp:41-44` the check of the instruction's address. -/
def vAlign (c : Ctx) : Ev Unit :=
  if c.virtualAddress % 2 ≠ 0 then Ev.queue .warning "Opcode not halfword aligned" else pure ()

/-- `CThumbInstruction.cpp:35-201` `Validate`. -/
def validate (E : Env) (op : Op) (o : Operands) (c : Ctx) : Ev (Except Bool Imm) := do
  vAlign c
  vImm E c op o

/-- `CThumbInstruction.cpp:230-313` the switch of `Encode`. -/
def encodeType (op : Op) (o : Operands) (imm enc : BitVec 32) : BitVec 32 :=
  match op.type with
  | 1 =>
    (if op.has .rightshift && imm == 0#32 then 0#32 else enc) ||| ((imm &&& 0x1F#32) <<< 6) ||| fld (rsOf op o) 3 ||| fld o.rd 0
  | 2 =>
    (if op.has .immediate then enc ||| (imm <<< 6) else if op.has .register then enc ||| fld o.rn 6 else enc) |||
      fld (rsOf op o) 3 ||| fld o.rd 0
  | 3 => enc ||| fld o.rd 8 ||| imm
  | 4 => enc ||| fld (rsOf op o) 3 ||| fld o.rd 0
  | 5 =>
    let enc := if op.has .d then orIf (decide (o.rd > 7)) (1#32 <<< 7) enc ||| fld (o.rd % 8) 0 else enc
    if op.has .s then orIf (decide (rsOf op o > 7)) (1#32 <<< 6) enc ||| fld (rsOf op o % 8) 3 else enc
  | 6 => enc ||| fld o.rd 8 ||| imm
  | 7 | 8 => enc ||| fld o.ro 6 ||| fld (rsOf op o) 3 ||| fld o.rd 0
  | 9 | 10 => orIf (op.has .immediate) (imm <<< 6) enc ||| fld (rsOf op o) 3 ||| fld o.rd 0
  | 11 => orIf (op.has .immediate) imm (enc ||| fld o.rd 8)
  | 12 => enc ||| fld o.rd 8 ||| imm
  | 13 => enc ||| imm
  | 14 => orIf (decide (o.rlist &&& 0xC000 ≠ 0)) (1#32 <<< 8) enc ||| fld (o.rlist % 256) 0
  | 15 => enc ||| fld o.rd 8 ||| fld (o.rlist % 256) 0
  | 16 | 17 | 18 => enc ||| imm
  | _ => enc

/-- `CThumbInstruction.cpp:208-316` `Encode`: the halfwords given to `WriteInstruction`, which truncates them to 16 bits. -/
def encode (op : Op) (o : Operands) (m : Imm) : List (BitVec 32) :=
  let enc := m.encoding.getD op.encoding
  if op.type = 19 then
    if op.has .long then
      [enc ||| ((m.value.sshiftRight 11) &&& 0x7FF#32),
        (if op.has .exchange then 0xE800#32 else 0xF800#32) ||| (m.value &&& 0x7FF#32)]
    else [orIf (op.has .immediate) (m.value &&& 0x7FF#32) enc]
  else [encodeType op o m.value enc]

/-- `CThumbInstruction.cpp:203-206` `WriteInstruction`. -/
def unit (w : BitVec 32) : Width × Int := (.w16, (w.setWidth 16).toNat)

/-- `CThumbInstruction.cpp:20` `OpcodeSize`. -/
def opcodeSize (op : Op) : Nat := if op.has .long then 4 else 2

/-- What is written: the halfwords of `Encode`. A row with `THUMB_LONG` has type 19 (`long_type19` in the lemmas); for any
other combination, which the table does not contain, the list is padded to the advertised size. -/
def written (op : Op) (o : Operands) (m : Imm) : List (BitVec 32) :=
  if op.has .long then [(encode op o m).getD 0 0#32, (encode op o m).getD 1 0#32] else [(encode op o m).getD 0 0#32]

/-- `CThumbInstruction.cpp:26` the pool word is out of reach. -/
def poolFar (ramPos address : Int) : Bool :=
  decide ((pcOffset ramPos address).toInt < 0 ∨ (pcOffset ramPos address).toInt > 1020)

/-- `CThumbInstruction.cpp:23-33` `setPoolAddress`: the immediate afterwards. -/
def poolImm (ramPos : Int) (m : Imm) : Option Int → Imm
  | none => m
  | some a => if !m.pool || poolFar ramPos a then m else { m with value := (pcOffset ramPos a).sshiftRight 2 }

theorem unitsSize_written (op : Op) (o : Operands) (m : Imm) : unitsSize ((written op o m).map unit) = opcodeSize op := by
  unfold written opcodeSize
  cases op.has .long <;> rfl

theorem unitsSize_zeros (op : Op) : unitsSize (List.replicate (opcodeSize op) (Width.w8, (0 : Int))) = opcodeSize op := by
  unfold opcodeSize
  cases op.has .long <;> rfl

/-- The instruction as the command tree sees it. -/
def outcome (op : Op) (o : Operands) (ramPos : Int) : Except Bool Imm → InstrOut
  | .error false => ⟨0, none, fun _ => [], fun _ => [], fun _ => rfl⟩
  | .error true =>
    ⟨opcodeSize op, none, fun _ => [], fun _ => List.replicate (opcodeSize op) (.w8, 0), fun _ => unitsSize_zeros op⟩
  | .ok m =>
    { size := opcodeSize op
      pool := if m.pool then some m.value.toInt else none
      poolDiags := fun a => if poolFar ramPos a then [{ type := .error, text := "Literal pool out of range" }] else []
      words := fun a => (written op o (poolImm ramPos m a)).map unit
      size_eq := fun a => unitsSize_written op o (poolImm ramPos m a) }

/-- `CThumbInstruction` as a command. `Validate` always returns false (`CThumbInstruction.cpp:200`). -/
def sem (E : Env) (op : Op) (o : Operands) : InstrSem where
  run c st := do pure (outcome op o c.virtualAddress (← validate E op o c), st)
  changed _ _ := false

end Armips.Thumb
