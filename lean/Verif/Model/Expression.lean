import Verif.Model.Logger
import Verif.Model.SymbolTable
/-!
# Expressions

Models `Core/Expression.{h,cpp}`, `Core/ExpressionFunctions.cpp`, `Core/ExpressionFunctionHandler.cpp` and the
architecture functions in `Archs/*/…ExpressionFunctions.cpp`.

* 64-bit integers are `Int`; an operation whose result is undefined behaviour in C++ (signed overflow, shift amounts
  outside 0..63, `-INT64_MIN`) or an uncaught exception (`substr`) has the outcome `Ev.ub`.
* Doubles are 64-bit patterns. Comparisons are defined on the patterns (IEEE 754); arithmetic, conversion and printing
  of doubles, regular expressions and tinyformat's `%0*X` are fields of `Host`, about which nothing is assumed: every
  theorem holds for each choice.
* Evaluation reads the assembler's state only through `Ctx`. Looking up a label that does not exist creates an undefined
  one (`SymbolTable::getLabel`); this is not observable by evaluation and left out here.
* A user function (`.function`) is an arbitrary function of `Ctx` and the parameter values.
-/
namespace Armips

abbrev F64 := BitVec 64

namespace F64
/-- Exponent and fraction bits. -/
def mag (a : F64) : Nat := a.toNat % 2 ^ 63
def sign (a : F64) : Bool := 2 ^ 63 ≤ a.toNat
def isNaN (a : F64) : Bool := 0x7FF0000000000000 < a.mag
/-- Position of a number that is not NaN in the order of the extended reals; the zeros share position 0. -/
def rank (a : F64) : Int := if a.sign then - (a.mag : Int) else a.mag
/-- `a < b`. -/
def lt (a b : F64) : Bool := !a.isNaN && !b.isNaN && a.rank < b.rank
/-- `a <= b`. -/
def le (a b : F64) : Bool := !a.isNaN && !b.isNaN && a.rank ≤ b.rank
/-- `a == b`. -/
def eq (a b : F64) : Bool := !a.isNaN && !b.isNaN && a.rank == b.rank
/-- Conversion to `bool`. -/
def toBool (a : F64) : Bool := a.mag != 0
def one : F64 := 0x3FF0000000000000#64
def zero : F64 := 0#64
def ofBool (b : Bool) : F64 := if b then one else zero
end F64

/-- Operations of the compiler, C library, C++ library and tinyformat that the model leaves open. -/
structure Host where
  add : F64 → F64 → F64
  sub : F64 → F64 → F64
  mul : F64 → F64 → F64
  div : F64 → F64 → F64
  ofInt : Int → F64
  /-- `(int64_t) x`; `none` when the value does not fit (undefined behaviour). -/
  toInt : F64 → Option Int
  /-- `llround`. -/
  round : F64 → Option Int
  /-- Fraction part of `modf`. -/
  frac : F64 → F64
  /-- `tfm::format("%#.17g", x)`. -/
  fmt17 : F64 → Str
  /-- `tfm::format("%g", x)`. -/
  fmtG : F64 → Str
  /-- `tfm::format("%0*X", digits, value)`. -/
  fmtHex : Int → Int → Str
  /-- `std::regex_match`; `none` when the expression is invalid. -/
  regexMatch : Str → Str → Option Bool
  /-- `std::regex_search`. -/
  regexSearch : Str → Str → Option Bool
  /-- Capture groups found by `std::regex_search`, empty if nothing was found. -/
  regexGroups : Str → Str → Option (List Str)
  /-- Byte order of the machine the assembler runs on. -/
  endianness : Endianness

/-- `Expression.h:50-103` `ExpressionValue`. A string or invalid value always has `intValue == 0`. -/
inductive Value
  | invalid
  | int (v : Int)
  | float (bits : F64)
  | str (s : Str)
  deriving DecidableEq, Repr

/-- A diagnostic produced during evaluation: printed at once or queued. -/
structure Diag where
  printed : Bool := false
  type : ErrorType
  text : String
  deriving DecidableEq, Repr

/-- Result of an evaluation: undefined behaviour (or an uncaught exception), or a value and the diagnostics reported. -/
inductive Ev (α : Type)
  | ub
  | ok (a : α) (diags : List Diag)
  deriving DecidableEq, Repr

namespace Ev
def bind {α β} (x : Ev α) (f : α → Ev β) : Ev β :=
  match x with
  | .ub => .ub
  | .ok a m =>
    match f a with
    | .ub => .ub
    | .ok b m' => .ok b (m ++ m')
instance : Monad Ev where
  pure a := .ok a []
  bind := Ev.bind
def queue (t : ErrorType) (s : String) : Ev Unit := .ok () [{ type := t, text := s }]
def print (t : ErrorType) (s : String) : Ev Unit := .ok () [{ printed := true, type := t, text := s }]
/-- The value alone. -/
def val {α} : Ev α → Option α
  | .ub => none
  | .ok a _ => some a
end Ev

/-- Range of `int64_t`. -/
def InI64 (v : Int) : Prop := -(2 ^ 63) ≤ v ∧ v < 2 ^ 63
instance (v : Int) : Decidable (InI64 v) := by unfold InI64; infer_instance

/-- Result of signed 64-bit arithmetic: overflow is undefined. -/
def chk (v : Int) : Ev Value := if InI64 v then pure (.int v) else Ev.ub

/-- `(int64_t) (uint64_t) …`. -/
def wrap64 (v : Int) : Int := (BitVec.ofInt 64 v).toInt

/-- `tfm::format("%d", v)`. -/
def fmtD (v : Int) : Str := lit (toString v)

/-- `std::string::operator<`: bytes compare as unsigned. -/
def strLt : Str → Str → Bool
  | _, [] => false
  | [], _ :: _ => true
  | a :: as, b :: bs => if a.toNat < b.toNat then true else if b.toNat < a.toNat then false else strLt as bs

namespace Value
variable (H : Host)

/-- `Expression.cpp:42-86`. -/
def add : Value → Value → Ev Value
  | .int a, .int b => chk (a + b)
  | .float a, .int b => pure (.float (H.add a (H.ofInt b)))
  | .int a, .float b => pure (.float (H.add (H.ofInt a) b))
  | .float a, .float b => pure (.float (H.add a b))
  | .int a, .str b => pure (.str (fmtD a ++ b))
  | .float a, .str b => pure (.str (H.fmt17 a ++ b))
  | .str a, .int b => pure (.str (a ++ fmtD b))
  | .str a, .float b => pure (.str (a ++ H.fmt17 b))
  | .str a, .str b => pure (.str (a ++ b))
  | _, _ => pure .invalid

/-- `Expression.cpp:88-114`. -/
def sub : Value → Value → Ev Value
  | .int a, .int b => chk (a - b)
  | .float a, .int b => pure (.float (H.sub a (H.ofInt b)))
  | .int a, .float b => pure (.float (H.sub (H.ofInt a) b))
  | .float a, .float b => pure (.float (H.sub a b))
  | _, _ => pure .invalid

/-- `Expression.cpp:116-142`. -/
def mul : Value → Value → Ev Value
  | .int a, .int b => chk (a * b)
  | .float a, .int b => pure (.float (H.mul a (H.ofInt b)))
  | .int a, .float b => pure (.float (H.mul (H.ofInt a) b))
  | .float a, .float b => pure (.float (H.mul a b))
  | _, _ => pure .invalid

/-- `Expression.cpp:144-181`. C++ integer division truncates towards zero. -/
def div : Value → Value → Ev Value
  | .int a, .int b =>
    if a = -(2 ^ 63) ∧ b = -1 then do
      Ev.queue .warning "Division overflow in expression"
      pure (.int (-(2 ^ 63)))
    else if b = 0 then do
      Ev.queue .warning "Integer division by zero in expression"
      pure (.int (-1))
    else pure (.int (a.tdiv b))
  | .float a, .int b => pure (.float (H.div a (H.ofInt b)))
  | .int a, .float b => pure (.float (H.div (H.ofInt a) b))
  | .float a, .float b => pure (.float (H.div a b))
  | _, _ => pure .invalid

/-- `Expression.cpp:183-208`. -/
def mod : Value → Value → Ev Value
  | .int a, .int b =>
    if a = -(2 ^ 63) ∧ b = -1 then do
      Ev.queue .warning "Division overflow in expression"
      pure (.int 0)
    else if b = 0 then do
      Ev.queue .warning "Integer division by zero in expression"
      pure (.int a)
    else pure (.int (a.tmod b))
  | _, _ => pure .invalid

def ofBool (b : Bool) : Value := .int (if b then 1 else 0)

/-- `Expression.cpp:210-221`. -/
def lnot : Value → Value
  | .float a => ofBool (!a.toBool)
  | .int a => ofBool (a == 0)
  | .str _ => ofBool true
  | .invalid => ofBool true

/-- `Expression.cpp:223-234`. -/
def bnot : Value → Value
  | .int a => .int (BitVec.toInt (~~~ BitVec.ofInt 64 a))
  | _ => .invalid

/-- `Expression.cpp:236-250`. -/
def shl : Value → Value → Ev Value
  | .int a, .int b =>
    if 0 ≤ b ∧ b < 64 then pure (.int (BitVec.ofInt 64 a <<< b.toNat).toInt) else Ev.ub
  | _, _ => pure .invalid

/-- `Expression.cpp:252-266`. -/
def shr : Value → Value → Ev Value
  | .int a, .int b =>
    if 0 ≤ b ∧ b < 64 then pure (.int (BitVec.ofInt 64 a >>> b.toNat).toInt) else Ev.ub
  | _, _ => pure .invalid

/-- `Expression.cpp:268-287`. -/
def lt : Value → Value → Bool
  | .int a, .int b => a < b
  | .float a, .int b => a.lt (H.ofInt b)
  | .int a, .float b => F64.lt (H.ofInt a) b
  | .float a, .float b => a.lt b
  | .str a, .str b => strLt a b
  | _, _ => false

/-- `Expression.cpp:289-308`. -/
def le : Value → Value → Bool
  | .int a, .int b => a ≤ b
  | .float a, .int b => a.le (H.ofInt b)
  | .int a, .float b => F64.le (H.ofInt a) b
  | .float a, .float b => a.le b
  | .str a, .str b => !strLt b a
  | _, _ => false

/-- `Expression.cpp:310-313`. -/
def gt (a b : Value) : Bool := lt H b a

/-- `Expression.cpp:315-318`. -/
def ge (a b : Value) : Bool := le H b a

/-- `Expression.cpp:320-345`. -/
def eq : Value → Value → Bool
  | .int a, .int b => a == b
  | .float a, .int b => a.eq (H.ofInt b)
  | .int a, .float b => F64.eq (H.ofInt a) b
  | .float a, .float b => a.eq b
  | .int a, .str b => fmtD a == b
  | .float a, .str b => H.fmt17 a == b
  | .str a, .int b => a == fmtD b
  | .str a, .float b => a == H.fmt17 b
  | .str a, .str b => a == b
  | _, _ => false

/-- `Expression.cpp:352-366`. -/
def band : Value → Value → Value
  | .int a, .int b => .int (BitVec.ofInt 64 a &&& BitVec.ofInt 64 b).toInt
  | _, _ => .invalid

/-- `Expression.cpp:368-382`. -/
def bor : Value → Value → Value
  | .int a, .int b => .int (BitVec.ofInt 64 a ||| BitVec.ofInt 64 b).toInt
  | _, _ => .invalid

/-- `Expression.cpp:384-398`. -/
def bxor : Value → Value → Value
  | .int a, .int b => .int (BitVec.ofInt 64 a ^^^ BitVec.ofInt 64 b).toInt
  | _, _ => .invalid

/-- `Expression.cpp:407-418`, `434-445`: the type of the result is Integer but the mixed cases store a double in the
union, so the integer is the bit pattern of 1.0 or 0.0. -/
def land : Value → Value → Value
  | .int a, .int b => ofBool (a != 0 && b != 0)
  | .float a, .int b => .int (F64.ofBool (a.toBool && b != 0)).toInt
  | .int a, .float b => .int (F64.ofBool (a != 0 && b.toBool)).toInt
  | .float a, .float b => .int (F64.ofBool (a.toBool && b.toBool)).toInt
  | _, _ => .int 0

/-- `Expression.cpp:427-450`. -/
def lor : Value → Value → Value
  | .int a, .int b => ofBool (a != 0 || b != 0)
  | .float a, .int b => .int (F64.ofBool (a.toBool || b != 0)).toInt
  | .int a, .float b => .int (F64.ofBool (a != 0 || b.toBool)).toInt
  | .float a, .float b => .int (F64.ofBool (a.toBool || b.toBool)).toInt
  | _, _ => .int 0

end Value

/-- `Expression.h:17-48` `OperatorType`, the operators with two operands. -/
inductive BinOp
  | add | sub | mult | div | mod | leftShift | rightShift | less | greater | lessEqual | greaterEqual | equal | notEqual
  | bitAnd | xor | bitOr | logAnd | logOr
  deriving DecidableEq, Repr

/-- The operators with one operand (`ToString` is separate). -/
inductive UnOp
  | neg | logNot | bitNot
  deriving DecidableEq, Repr

/-- `Expression.cpp:608-720` the operator cases of `evaluate`. -/
def BinOp.apply (H : Host) : BinOp → Value → Value → Ev Value
  | .add, a, b => Value.add H a b
  | .sub, a, b => Value.sub H a b
  | .mult, a, b => Value.mul H a b
  | .div, a, b => Value.div H a b
  | .mod, a, b => Value.mod a b
  | .leftShift, a, b => Value.shl a b
  | .rightShift, a, b => Value.shr a b
  | .less, a, b => pure (.ofBool (Value.lt H a b))
  | .greater, a, b => pure (.ofBool (Value.gt H a b))
  | .lessEqual, a, b => pure (.ofBool (Value.le H a b))
  | .greaterEqual, a, b => pure (.ofBool (Value.ge H a b))
  | .equal, a, b => pure (.ofBool (Value.eq H a b))
  | .notEqual, a, b => pure (.ofBool (!Value.eq H a b))
  | .bitAnd, a, b => pure (Value.band a b)
  | .xor, a, b => pure (Value.bxor a b)
  | .bitOr, a, b => pure (Value.bor a b)
  | .logAnd, a, b => pure (Value.land a b)
  | .logOr, a, b => pure (Value.lor a b)

/-- `Expression.cpp:655-662`. -/
def UnOp.apply (H : Host) : UnOp → Value → Ev Value
  | .neg, a => Value.sub H (.int 0) a
  | .logNot, a => pure (Value.lnot a)
  | .bitNot, a => pure (Value.bnot a)

/-- `ExpressionFunctionHandler.h:23-31`. -/
inductive Safety
  | unsafe_ | conditionalUnsafe | safe
  deriving DecidableEq, Repr

/-- What evaluation reads from the assembler's global state. -/
structure Ctx where
  /-- `Global.symbolTable.getLabel(name, file, section)`; `none` is the null pointer. -/
  label : Str → Int → Int → Option Label
  /-- The open output file: virtual address, header size, name. -/
  file : Option (Int × Int × Str)
  endianness : Endianness
  /-- Contents of the file that a path names, after `getFullPathName`; `none` if it does not exist. -/
  readFile : Str → Option (List Byte)
  /-- `&Architecture::current() == &Arm && !Arm.GetThumbMode()`. -/
  isArm : Bool
  /-- `Arm.GetThumbMode()`. -/
  isThumb : Bool

namespace Ctx
/-- `FileManager.cpp:321-326` `getVirtualAddress`. -/
def virtualAddress (c : Ctx) : Int := match c.file with | none => -1 | some f => f.1
end Ctx

/-- The generic functions `ExpressionFunctions.cpp:672-709` with value parameters and the architecture functions. -/
inductive Builtin
  | version | endianness | outputName | fileExists | fileSize | toString_ | toHex
  | int | float | frac | abs | round | min | max
  | strlen | substr | regexMatch | regexSearch | regexExtract | find | rfind
  | read (bytes : Nat) (signed : Bool) | readAscii
  | hi | lo | isArm | isThumb
  deriving DecidableEq, Repr

/-- `ExpressionFunctions.cpp:711-717`: functions of labels. -/
inductive LabelFn
  | defined | org | orga | headerSize
  deriving DecidableEq, Repr

/-- `ExpressionFunctions.cpp:31-44` `getExpFuncParameter` for integers. -/
def paramInt (params : List Value) (i : Nat) (k : Int → Ev Value) : Ev Value :=
  match params[i]? with
  | some (.int v) => k v
  | _ => do Ev.queue .error "Invalid parameter: expecting integer"; pure .invalid

/-- `ExpressionFunctions.cpp:46-59` `getExpFuncParameter` for strings. -/
def paramStr (params : List Value) (i : Nat) (k : Str → Ev Value) : Ev Value :=
  match params[i]? with
  | some (.str v) => k v
  | _ => do Ev.queue .error "Invalid parameter: expecting string"; pure .invalid

/-- `GET_OPTIONAL_PARAM` for integers. -/
def paramIntOpt (params : List Value) (i : Nat) (default : Int) (k : Int → Ev Value) : Ev Value :=
  if i ≥ params.length then k default else paramInt params i k

/-- `std::string::find(needle, pos)` for `pos ≤ s.size()`, from offset `i` on. -/
def findFrom (needle : Str) : Nat → Str → Option Nat
  | i, [] => if needle.isEmpty then some i else none
  | i, c :: s => if needle.isPrefixOf (c :: s) then some i else findFrom needle (i + 1) s

/-- `std::string::find(needle, pos)`. -/
def strFind (s needle : Str) (pos : Nat) : Option Nat :=
  if pos > s.length then none else findFrom needle pos (s.drop pos)

/-- The loop of `std::string::rfind`: tries position `i`, then lower ones. -/
def rfindFrom (s needle : Str) : Nat → Option Nat
  | 0 => if needle.isPrefixOf s then some 0 else none
  | i + 1 => if needle.isPrefixOf (s.drop (i + 1)) then some (i + 1) else rfindFrom s needle i

/-- `std::string::rfind(needle, pos)`. -/
def strRFind (s needle : Str) (pos : Nat) : Option Nat :=
  if needle.length > s.length then none else rfindFrom s needle (min pos (s.length - needle.length))

/-- `ExpressionFunctions.cpp:434`, `452`: `npos` becomes -1. -/
def optPos : Option Nat → Int
  | none => -1
  | some p => p

/-- `(size_t) v`. -/
def toSizeT (v : Int) : Nat := (BitVec.ofInt 64 v).toNat

/-- One iteration of the loops `ExpressionFunctions.cpp:250-273` and `296-319`: (intAcc, floatAcc, intCur, floatCur, isInt).
`better a b` says that `a` replaces `b`. `none`: a parameter that is not a number. -/
def minMaxStep (H : Host) (betterI : Int → Int → Bool) (betterF : F64 → F64 → Bool)
    (acc : Option (Int × F64 × Int × F64 × Bool)) (p : Value) : Option (Int × F64 × Int × F64 × Bool) :=
  match acc with
  | none => none
  | some (ia, fa, ic, _fc, isI) =>
    match p with
    | .int v =>
      let ic := v
      let fc := H.ofInt v
      some (if betterI ic ia then ic else ia, if betterF fc fa then fc else fa, ic, fc, isI)
    | .float v =>
      let fc := v
      some (if betterI ic ia then ic else ia, if betterF fc fa then fc else fa, ic, fc, false)
    | _ => none

/-- The common shape of `expFuncMin` and `expFuncMax`. -/
def minMax (H : Host) (betterI : Int → Int → Bool) (betterF : F64 → F64 → Bool) (i0 : Int) (f0 : F64)
    (params : List Value) : Value :=
  match params.foldl (minMaxStep H betterI betterF) (some (i0, f0, i0, f0, true)) with
  | none => .invalid
  | some (ia, fa, _, _, isI) => if isI then .int ia else .float fa

/-- `numeric_limits<double>::max()`. -/
def dblMax : F64 := 0x7FEFFFFFFFFFFFFF#64
/-- `numeric_limits<double>::min()`: the smallest positive normal number. -/
def dblMin : F64 := 0x0010000000000000#64

/-- `ExpressionFunctions.cpp:237-281` `expFuncMin`. -/
def expMin (H : Host) (params : List Value) : Value :=
  minMax H (fun a b => a < b) (fun a b => a.lt b) (2 ^ 63 - 1) dblMax params

/-- `ExpressionFunctions.cpp:283-327` `expFuncMax`. -/
def expMax (H : Host) (params : List Value) : Value :=
  minMax H (fun a b => b < a) (fun a b => b.lt a) (-(2 ^ 63)) dblMin params

/-- `ExpressionFunctions.cpp:455-491` `expFuncRead<T>`: `T` has `n` bytes; the bytes are read into an object of the host. -/
def expRead (H : Host) (c : Ctx) (n : Nat) (signed : Bool) (params : List Value) : Ev Value :=
  paramStr params 0 fun name => paramIntOpt params 1 0 fun pos =>
    match c.readFile name with
    | none => do Ev.queue .error "Could not open file"; pure .invalid
    | some content =>
      if pos < 0 then do Ev.queue .error "Invalid offset"; pure .invalid
      else
        let bytes := (content.drop pos.toNat).take n
        if bytes.length < n then do Ev.queue .error "Failed to read"; pure .invalid
        else
          let v := fromBytes H.endianness bytes
          pure (.int (if signed then (BitVec.ofNat (8 * n) v).toInt else wrap64 v))

/-- `ExpressionFunctions.cpp:531-549`: `none` for a character below 0x20, otherwise the text up to the first zero byte.
`char` is signed, so bytes from 0x80 on are below 0x20 too. -/
def asciiPrefix : List Byte → Option Str
  | [] => some []
  | b :: bs =>
    if b = 0#8 then some []
    else if b.toInt < 0x20 then none
    else (asciiPrefix bs).map (b :: ·)

/-- `ExpressionFunctions.cpp:493-552` `expFuncReadAscii`; the 1024-byte buffer is left out. A start or length of huge
magnitude overflows `start+length`. -/
def expReadAscii (c : Ctx) (params : List Value) : Ev Value :=
  paramStr params 0 fun name => paramIntOpt params 1 0 fun start => paramIntOpt params 2 0 fun length =>
    let totalSize : Int := match c.readFile name with | none => -1 | some content => content.length
    if length ≠ 0 ∧ ¬ InI64 (start + length) then Ev.ub
    else if (length = 0 ∨ start + length > totalSize) ∧ ¬ InI64 (totalSize - start) then Ev.ub
    else
      let length := if length = 0 ∨ start + length > totalSize then totalSize - start else length
      match c.readFile name with
      | none => do Ev.queue .error "Could not open file"; pure .invalid
      | some content =>
        if start < 0 then do Ev.queue .error "Invalid offset"; pure .invalid
        else match asciiPrefix ((content.drop start.toNat).take length.toNat) with
          | none => do Ev.print .warning "Non-ASCII character"; pure .invalid
          | some s => pure (.str s)

/-- `Core/Assembler.h` `ARMIPS_VERSION_*`: 0.11.0 gives 110. -/
def armipsVersion : Int := 110

/-- The functors of `ExpressionFunctions.cpp` and `Archs/*/…ExpressionFunctions.cpp`. `parameters[0]` of an empty vector is
undefined (the registry never calls them that way). -/
def Builtin.exec (H : Host) (c : Ctx) : Builtin → List Value → Ev Value
  | .version, _ => pure (.int armipsVersion)
  | .endianness, _ => pure (.str (match c.endianness with | .little => lit "little" | .big => lit "big"))
  | .outputName, _ =>
    match c.file with
    | none => do Ev.queue .error "outputName: no file opened"; pure .invalid
    | some f => pure (.str f.2.2)
  | .fileExists, ps => paramStr ps 0 fun n => pure (.ofBool (c.readFile n).isSome)
  | .fileSize, ps => paramStr ps 0 fun n => pure (.int (match c.readFile n with | none => -1 | some d => d.length))
  | .toString_, ps =>
    match ps with
    | .str s :: _ => pure (.str s)
    | .int v :: _ => pure (.str (fmtD v))
    | .float v :: _ => pure (.str (H.fmt17 v))
    | .invalid :: _ => pure .invalid
    | [] => Ev.ub
  | .toHex, ps => paramInt ps 0 fun v => paramIntOpt ps 1 8 fun digits => pure (.str (H.fmtHex digits v))
  | .int, ps =>
    match ps with
    | .int v :: _ => pure (.int v)
    | .float v :: _ => match H.toInt v with | none => Ev.ub | some i => pure (.int i)
    | _ :: _ => pure .invalid
    | [] => Ev.ub
  | .round, ps =>
    match ps with
    | .int v :: _ => pure (.int v)
    | .float v :: _ => match H.round v with | none => Ev.ub | some i => pure (.int i)
    | _ :: _ => pure .invalid
    | [] => Ev.ub
  | .float, ps =>
    match ps with
    | .int v :: _ => pure (.float (H.ofInt v))
    | .float v :: _ => pure (.float v)
    | _ :: _ => pure .invalid
    | [] => Ev.ub
  | .frac, ps =>
    match ps with
    | .float v :: _ => pure (.float (H.frac v))
    | _ :: _ => pure .invalid
    | [] => Ev.ub
  | .abs, ps =>
    match ps with
    | .float v :: _ => pure (.float (v &&& 0x7FFFFFFFFFFFFFFF#64))
    | .int v :: _ => if v ≥ 0 then pure (.int v) else chk (-v)
    | _ :: _ => pure .invalid
    | [] => Ev.ub
  | .min, ps => pure (expMin H ps)
  | .max, ps => pure (expMax H ps)
  | .strlen, ps => paramStr ps 0 fun s => pure (.int s.length)
  | .substr, ps => paramStr ps 0 fun s => paramInt ps 1 fun start => paramInt ps 2 fun count =>
      if toSizeT start > s.length then Ev.ub
      else pure (.str ((s.drop (toSizeT start)).take (toSizeT count)))
  | .regexMatch, ps => paramStr ps 0 fun s => paramStr ps 1 fun r =>
      match H.regexMatch s r with
      | none => do Ev.queue .error "Invalid regular expression"; pure .invalid
      | some b => pure (.ofBool b)
  | .regexSearch, ps => paramStr ps 0 fun s => paramStr ps 1 fun r =>
      match H.regexSearch s r with
      | none => do Ev.queue .error "Invalid regular expression"; pure .invalid
      | some b => pure (.ofBool b)
  | .regexExtract, ps => paramStr ps 0 fun s => paramStr ps 1 fun r => paramIntOpt ps 2 0 fun i =>
      match H.regexGroups s r with
      | none => do Ev.queue .error "Invalid regular expression"; pure .invalid
      | some groups =>
        match groups[toSizeT i]? with
        | none => do Ev.queue .error "Capture group index does not exist"; pure .invalid
        | some g => pure (.str g)
  | .find, ps => paramStr ps 0 fun s => paramStr ps 1 fun v => paramIntOpt ps 2 0 fun start =>
      pure (.int (optPos (strFind s v (toSizeT start))))
  | .rfind, ps => paramStr ps 0 fun s => paramStr ps 1 fun v => paramIntOpt ps 2 (-1) fun start =>
      pure (.int (optPos (strRFind s v (toSizeT start))))
  | .read n signed, ps => expRead H c n signed ps
  | .readAscii, ps => expReadAscii c ps
  | .hi, ps => paramInt ps 0 fun v =>
      -- `MipsExpressionFunctions.cpp:10-17`; the addition cannot overflow after the shift
      pure (.int (BitVec.ofInt 64 (v / 2 ^ 16 + (if (BitVec.ofInt 64 v &&& 0x8000#64) ≠ 0#64 then 1 else 0)) &&&
        0xFFFF#64).toInt)
  | .lo, ps => paramInt ps 0 fun v =>
      -- `MipsExpressionFunctions.cpp:19-26`
      pure (.int ((BitVec.ofInt 64 v &&& 0xFFFF#64).truncate 16).toInt)
  | .isArm, _ => pure (.ofBool c.isArm)
  | .isThumb, _ => pure (.ofBool c.isThumb)

/-- `ExpressionFunctions.cpp:554-669`: label functions; a parameter is the looked-up label or the null pointer. -/
def LabelFn.exec (c : Ctx) : LabelFn → List (Option Label) → Ev Value
  | .defined, ps =>
    match ps with
    | some l :: _ => pure (.ofBool l.defined)
    | _ => do Ev.queue .error "defined: Invalid parameters"; pure .invalid
  | .org, ps =>
    match ps with
    | none :: _ => pure .invalid
    | some l :: _ => pure (.int l.value)
    | [] =>
      match c.file with
      | none => do Ev.queue .error "org: no file opened"; pure .invalid
      | some f => pure (.int f.1)
  | .orga, ps =>
    match ps with
    | none :: _ => pure .invalid
    | some l :: _ =>
      match l.physicalValue with
      | none => do Ev.queue .error "orga: parameter has no physical address"; pure .invalid
      | some p => pure (.int p)
    | [] =>
      match c.file with
      | none => do Ev.queue .error "orga: no file opened"; pure .invalid
      | some f => pure (.int (f.1 - f.2.1))
  | .headerSize, ps =>
    match ps with
    | none :: _ => pure .invalid
    | some l :: _ =>
      match l.physicalValue with
      | none => do Ev.queue .error "headersize: parameter has no physical address"; pure .invalid
      | some p => chk (l.value - p)
    | [] =>
      match c.file with
      | none => do Ev.queue .error "headersize: no file opened"; pure .invalid
      | some f => pure (.int f.2.1)

/-- What a registered function does. -/
inductive FuncKind
  | builtin (b : Builtin)
  | label (l : LabelFn)
  | user (f : Ctx → List Value → Ev Value)

/-- `ExpressionFunctionHandler.h:50-56` `Entry`. -/
structure FuncEntry where
  kind : FuncKind
  minParams : Nat
  maxParams : Nat
  safety : Safety

/-- The registry `entries`. -/
abbrev Funcs := Str → Option FuncEntry

mutual
/-- `Expression.h:106-160` `ExpressionInternal`. -/
inductive Expr
  | invalid
  | int (v : Int)
  | float (v : F64)
  | ident (name : Str) (file section_ : Int)
  | str (s : Str)
  | memoryPos
  | un (op : UnOp) (a : Expr)
  | bin (op : BinOp) (a b : Expr)
  | cond (a b c : Expr)
  | toString_ (a : Expr)
  | call (name : Str) (args : Args)
/-- `children` of a function call. -/
inductive Args
  | nil
  | cons (e : Expr) (rest : Args)
end

def Args.length : Args → Nat
  | .nil => 0
  | .cons _ r => r.length + 1

/-- `tfm::format("(%s OP %s)", …)` operators in `Expression.cpp:745-810`. -/
def BinOp.symbol : BinOp → String
  | .add => "+" | .sub => "-" | .mult => "*" | .div => "/" | .mod => "%" | .leftShift => "<<" | .rightShift => ">>"
  | .less => "<" | .greater => ">" | .lessEqual => "<=" | .greaterEqual => ">=" | .equal => "==" | .notEqual => "!="
  | .bitAnd => "&" | .xor => "^" | .bitOr => "|" | .logAnd => "&&" | .logOr => "||"

def UnOp.symbol : UnOp → String | .neg => "-" | .logNot => "!" | .bitNot => "~"

/-- `Expression.cpp:745-810` `toString`. A function call reads the wrong alternative of a variant
(`formatFunctionCall`, `Expression.cpp:731-743`), which dereferences a null pointer: `none`. `escapeString`
(`Expression.cpp:722-729`) returns the text without the escapes it computed. -/
def Expr.render (H : Host) : Expr → Option Str
  | .invalid => some []
  | .int v => some (fmtD v)
  | .float v => some (H.fmtG v)
  | .ident n _ _ => some n
  | .str s => some (chr '"' :: s ++ [chr '"'])
  | .memoryPos => some [chr '.']
  | .un op a => do some (chr '(' :: lit op.symbol ++ (← a.render H) ++ [chr ')'])
  | .bin op a b => do
    some (chr '(' :: (← a.render H) ++ lit " " ++ lit op.symbol ++ lit " " ++ (← b.render H) ++ [chr ')'])
  | .cond a b c => do
    some (chr '(' :: (← a.render H) ++ lit " ? " ++ (← b.render H) ++ lit " : " ++ (← c.render H) ++ [chr ')'])
  | .toString_ a => do some (chr '(' :: 0xC2#8 :: 0xB0#8 :: (← a.render H) ++ [chr ')'])
  | .call _ _ => none

/-- `ExpressionFunctionHandler.cpp:84-111`: the labels named by the parameters of a label function; `none` if a parameter
is not an identifier. -/
def Args.labels (c : Ctx) : Args → Option (List (Option Label))
  | .nil => some []
  | .cons (.ident n f s) rest => (rest.labels c).map (c.label n f s :: ·)
  | .cons _ _ => none

mutual
/-- `Expression.cpp:608-720` `evaluate`, with `executeFunctionCall` (`509-534`). -/
def Expr.eval (H : Host) (F : Funcs) (c : Ctx) : Expr → Ev Value
  | .invalid => pure .invalid
  | .int v => pure (.int v)
  | .float v => pure (.float v)
  | .ident n f s =>
    match c.label n f s with
    | none => do Ev.queue .error "Invalid label name"; pure .invalid
    | some l =>
      if !l.defined then do Ev.queue .error "Undefined label"; pure .invalid
      else pure (.int l.value)
  | .str s => pure (.str s)
  | .memoryPos => pure (.int c.virtualAddress)
  | .toString_ a => match a.render H with | none => Ev.ub | some s => pure (.str s)
  | .un op a => do op.apply H (← a.eval H F c)
  | .bin op a b => do
    let x ← a.eval H F c
    let y ← b.eval H F c
    op.apply H x y
  | .cond a b d => do
    let x ← a.eval H F c
    if Value.eq H x (.int 0) then d.eval H F c else b.eval H F c
  | .call name args =>
    match F name with
    | none => do Ev.queue .error "Unknown function"; pure .invalid
    | some e =>
      if e.minParams > args.length then do Ev.queue .error "Not enough parameters"; pure .invalid
      else if e.maxParams < args.length then do Ev.queue .error "Too many parameters"; pure .invalid
      else
        match e.kind with
        | .label l =>
          match args.labels c with
          | none => do Ev.queue .error "Invalid parameter, expecting identifier"; pure .invalid
          | some ls => l.exec c ls
        | .builtin b => do
          match ← args.eval H F c with
          | none => pure .invalid
          | some vs => b.exec H c vs
        | .user f => do
          match ← args.eval H F c with
          | none => pure .invalid
          | some vs => f c vs
/-- `ExpressionFunctionHandler.cpp:60-75`, `119-132`: evaluation of the parameters; `none` as soon as one is invalid. -/
def Args.eval (H : Host) (F : Funcs) (c : Ctx) : Args → Ev (Option (List Value))
  | .nil => pure (some [])
  | .cons e rest => do
    let v ← e.eval H F c
    if v = .invalid then do
      Ev.queue .error "Invalid parameter"
      pure none
    else
      let vs ← rest.eval H F c
      pure (vs.map (v :: ·))
end

/-- `Expression.cpp:536-550` `isExpressionFunctionSafe`. -/
def isFunctionSafe (F : Funcs) (name : Str) (inUnknownOrFalseBlock : Bool) : Bool :=
  match F name with
  | none => true
  | some e =>
    if inUnknownOrFalseBlock && e.safety = .conditionalUnsafe then false
    else e.safety ≠ .unsafe_

/-- `Expression.cpp:577-598`: the constant an expression becomes. -/
def Expr.ofValue : Value → Expr
  | .int v => .int v
  | .float v => .float v
  | .str s => .str s
  | .invalid => .invalid

/-- `Expression.cpp:573-605`: folding once the children are done. -/
def Expr.fold (H : Host) (F : Funcs) (c : Ctx) (e : Expr) (canSimplify : Bool) : Ev (Expr × Bool) :=
  if canSimplify then do pure (Expr.ofValue (← e.eval H F c), true) else pure (e, false)

mutual
/-- `Expression.cpp:552-606` `simplify`: the new expression and the return value. -/
def Expr.simplify (H : Host) (F : Funcs) (c : Ctx) (inBlock : Bool) : Expr → Ev (Expr × Bool)
  | .ident n f s => pure (.ident n f s, false)
  | .memoryPos => pure (.memoryPos, false)
  | .toString_ a => pure (.toString_ a, false)
  | .call name args =>
    if !isFunctionSafe F name inBlock then pure (.call name args, false)
    else do
      let (args', ok) ← args.simplify H F c inBlock
      Expr.fold H F c (.call name args') ok
  | .un op a => do
    let (a', ok) ← a.simplify H F c inBlock
    Expr.fold H F c (.un op a') ok
  | .bin op a b => do
    let (a', ok) ← a.simplify H F c inBlock
    let (b', ok') ← b.simplify H F c inBlock
    Expr.fold H F c (.bin op a' b') (ok && ok')
  | .cond a b d => do
    let (a', ok) ← a.simplify H F c inBlock
    let (b', ok') ← b.simplify H F c inBlock
    let (d', ok'') ← d.simplify H F c inBlock
    Expr.fold H F c (.cond a' b' d') (ok && ok' && ok'')
  | .invalid => Expr.fold H F c .invalid true
  | .int v => Expr.fold H F c (.int v) true
  | .float v => Expr.fold H F c (.float v) true
  | .str s => Expr.fold H F c (.str s) true
/-- The loop over the children, `Expression.cpp:566-571`. -/
def Args.simplify (H : Host) (F : Funcs) (c : Ctx) (inBlock : Bool) : Args → Ev (Args × Bool)
  | .nil => pure (.nil, true)
  | .cons e rest => do
    let (e', ok) ← e.simplify H F c inBlock
    let (rest', ok') ← rest.simplify H F c inBlock
    pure (.cons e' rest', ok && ok')
end

mutual
/-- `Expression.cpp:487-507` `replaceMemoryPos`. -/
def Expr.replaceMemoryPos (name : Str) (file section_ : Int) : Expr → Expr
  | .memoryPos => .ident name file section_
  | .un op a => .un op (a.replaceMemoryPos name file section_)
  | .bin op a b => .bin op (a.replaceMemoryPos name file section_) (b.replaceMemoryPos name file section_)
  | .cond a b d => .cond (a.replaceMemoryPos name file section_) (b.replaceMemoryPos name file section_)
      (d.replaceMemoryPos name file section_)
  | .toString_ a => .toString_ (a.replaceMemoryPos name file section_)
  | .call n args => .call n (args.replaceMemoryPos name file section_)
  | e => e
def Args.replaceMemoryPos (name : Str) (file section_ : Int) : Args → Args
  | .nil => .nil
  | .cons e rest => .cons (e.replaceMemoryPos name file section_) (rest.replaceMemoryPos name file section_)
end

end Armips
