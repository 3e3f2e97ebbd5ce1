import Verif.Spec.Bytes
import Verif.Model.Logger
/-!
# Output files

Models `Core/FileManager.{h,cpp}`. The disk is a map from path names to contents. Simplifications:

* Operating-system failures (permissions, full disk) do not happen: creating, reading and writing succeed; opening for
  update fails exactly when the file does not exist.
* Two path names denote the same file exactly when they are equal (`fs::equivalent`).
* Addresses are unbounded integers; the code uses `int64_t` (overflow needs addresses near 2^63). `advanceMemory` takes
  a `size_t` that callers obtain by converting a possibly negative `int64_t`; adding it modulo 2^64 is adding the
  integer, which is what the model does.
* `seekVirtual` also updates the current section in memory mode (`FileManager.cpp:346-351`); see `findSection` in
  `Verif.Model.SymbolTable`.
-/
namespace Armips

/-- `FileManager.h:47` `Mode`. -/
inductive FileMode
  | open_ | create | copy (original : String)
  deriving DecidableEq, Repr

/-- `FileManager.h:35-57` a `GenericAssemblerFile`. `stream` is the put position of the output stream if it is open. -/
structure AFile where
  mode : FileMode
  originalHeaderSize : Int
  headerSize : Int
  virtualAddress : Int
  stream : Option Nat := none
  fileName : String
  deriving DecidableEq, Repr

/-- Contents of a file after writing `bytes` at `pos`; a gap behind the end is filled with zeros (POSIX). -/
def writeAt (content : List Byte) (pos : Nat) (bytes : List Byte) : List Byte :=
  if bytes.isEmpty then content
  else (content ++ List.replicate (pos - content.length) 0#8).take pos ++ bytes ++ content.drop (pos + bytes.length)

/-- `FileManager.h:60-98` `FileManager`, with the disk and the diagnostics it reports to. Files are numbered. -/
structure FM where
  active : Option Nat := none
  endianness : Endianness := .little
  ownEndianness : Endianness := .little
  files : Nat → AFile
  disk : String → Option (List Byte)
  log : Logger := {}

namespace FM

def queueError (m : FM) (t : ErrorType) (s : String) : FM := { m with log := m.log.queueError t s }
def printError (m : FM) (t : ErrorType) (s : String) : FM := { m with log := m.log.printError t s }
def setFile (m : FM) (i : Nat) (f : AFile) : FM := { m with files := fun j => if j = i then f else m.files j }
def setDisk (m : FM) (p : String) (c : List Byte) : FM :=
  { m with disk := fun q => if q = p then some c else m.disk q }

/-- `FileManager.cpp:26-38` the two constructors, including `seekPhysical(0)` on the closed file. -/
def newFile (fileName : String) (mode : FileMode) (headerSize : Int) : AFile :=
  { mode, originalHeaderSize := headerSize, headerSize, virtualAddress := headerSize, fileName }

/-- `FileManager.cpp:233-237` `reset`. -/
def reset (m : FM) : FM := { m with active := none, endianness := .little }

/-- `FileManager.cpp:239-247` `checkActiveFile`. -/
def checkActiveFile (m : FM) : FM × Bool :=
  match m.active with
  | none => (m.queueError .error "No file opened", false)
  | some _ => (m, true)

/-- `FileManager.cpp:40-155` `GenericAssemblerFile::open`. -/
def openAFile (m : FM) (i : Nat) (onlyCheck : Bool) : FM × Bool :=
  let f := m.files i
  let f := { f with headerSize := f.originalHeaderSize, virtualAddress := f.originalHeaderSize }
  let m := m.setFile i f
  if !onlyCheck then
    match f.mode with
    | .open_ =>
      if (m.disk f.fileName).isNone then (m.printError .fatalError "Could not open file", false)
      else (m.setFile i { f with stream := some 0 }, true)
    | .create => ((m.setDisk f.fileName []).setFile i { f with stream := some 0 }, true)
    | .copy original =>
      match m.disk original with
      | none => (m.printError .fatalError "Could not copy file", false)
      | some c => ((m.setDisk f.fileName c).setFile i { f with stream := some 0 }, true)
  else
    match f.mode with
    | .open_ =>
      if (m.disk f.fileName).isNone then (m.queueError .fatalError "Could not open file", false) else (m, true)
    | .create => (m, true)
    | .copy original =>
      if (m.disk original).isNone then (m.queueError .fatalError "Could not copy file", false)
      else if original = f.fileName then (m.queueError .fatalError "Could not copy file", false)
      else (m, true)

/-- `FileManager.h:42` `close` of a file. -/
def closeAFile (m : FM) (i : Nat) : FM := m.setFile i { m.files i with stream := none }

/-- `FileManager.cpp:249-259` `openFile`. -/
def openFile (m : FM) (i : Nat) (onlyCheck : Bool) : FM × Bool :=
  let m := match m.active with
    | none => m
    | some j => (m.queueError .warning "File not closed before opening a new one").closeAFile j
  { m with active := some i }.openAFile i onlyCheck

/-- `FileManager.cpp:266-276` `closeFile`. -/
def closeFile (m : FM) : FM :=
  match m.active with
  | none => m.queueError .warning "No file opened"
  | some i => { m.closeAFile i with active := none }

/-- `FileManager.cpp:157-165` `GenericAssemblerFile::write`. -/
def writeAFile (m : FM) (i : Nat) (bytes : List Byte) : FM × Bool :=
  let f := m.files i
  match f.stream with
  | none => (m, false)
  | some pos =>
    let m := m.setDisk f.fileName (writeAt ((m.disk f.fileName).getD []) pos bytes)
    (m.setFile i { f with stream := some (pos + bytes.length), virtualAddress := f.virtualAddress + bytes.length }, true)

/-- `FileManager.cpp:278-290` `write`. -/
def write (m : FM) (bytes : List Byte) : FM × Bool :=
  match m.active with
  | none => (m.queueError .error "No file opened", false)
  | some i =>
    if (m.files i).stream.isNone then (m.queueError .error "No file opened", false)
    else m.writeAFile i bytes

/-- `FileManager.cpp:167-185` `GenericAssemblerFile::seekVirtual`. -/
def seekVirtualAFile (m : FM) (i : Nat) (va : Int) : FM × Bool :=
  let f := m.files i
  if va - f.headerSize < 0 then
    (m.queueError .error "Seeking to virtual address with negative physical address", false)
  else
    let m := if va < 0 then m.queueError .warning "Seeking to negative virtual address" else m
    (m.setFile i { f with
      virtualAddress := va, stream := f.stream.map fun _ => (va - f.headerSize).toNat }, true)

/-- `FileManager.cpp:187-204` `GenericAssemblerFile::seekPhysical`. -/
def seekPhysicalAFile (m : FM) (i : Nat) (pa : Int) : FM × Bool :=
  let f := m.files i
  if pa < 0 then (m.queueError .error "Seeking to negative physical address", false)
  else
    let m := if pa + f.headerSize < 0 then
        m.queueError .warning "Seeking to physical address with negative virtual address" else m
    (m.setFile i { f with virtualAddress := pa + f.headerSize, stream := f.stream.map fun _ => pa.toNat }, true)

/-- `FileManager.cpp:321-326` `getVirtualAddress`. -/
def getVirtualAddress (m : FM) : Int :=
  match m.active with | none => -1 | some i => (m.files i).virtualAddress

/-- `FileManager.cpp:328-333` `getPhysicalAddress`, with `FileManager.h:45`. -/
def getPhysicalAddress (m : FM) : Int :=
  match m.active with | none => -1 | some i => (m.files i).virtualAddress - (m.files i).headerSize

/-- `FileManager.cpp:335-340` `getHeaderSize`. -/
def getHeaderSize (m : FM) : Int :=
  match m.active with | none => -1 | some i => (m.files i).headerSize

/-- `FileManager.cpp:342-355` `seekVirtual`. -/
def seekVirtual (m : FM) (va : Int) : FM × Bool :=
  match m.active with
  | none => (m.queueError .error "No file opened", false)
  | some i => m.seekVirtualAFile i va

/-- `FileManager.cpp:357-362` `seekPhysical`. -/
def seekPhysical (m : FM) (pa : Int) : FM × Bool :=
  match m.active with
  | none => (m.queueError .error "No file opened", false)
  | some i => m.seekPhysicalAFile i pa

/-- `FileManager.cpp:364-371` `advanceMemory`. -/
def advanceMemory (m : FM) (bytes : Int) : FM × Bool :=
  match m.active with
  | none => (m.queueError .error "No file opened", false)
  | some i => m.seekVirtualAFile i ((m.files i).virtualAddress + bytes)

/-- `FileManager.cpp:373-380` `getOpenFileID`: the address of the file object, here its number plus one. -/
def getOpenFileID (m : FM) : FM × Int :=
  match m.active with
  | none => (m.queueError .error "No file opened", 0)
  | some i => (m, (i : Int) + 1)

/-- `CDirectiveFile.cpp:469-482` `CDirectiveHeaderSize::exec`. With no open file the code dereferences a null pointer:
`none`. -/
def execHeaderSize (m : FM) (headerSize : Int) : Option FM :=
  match m.active with
  | none => none
  | some i =>
    let f := m.files i
    let pa := f.virtualAddress - f.headerSize
    some ((m.setFile i { f with headerSize := headerSize }).seekPhysicalAFile i pa).1

/-- `FileManager.cpp:21-24` `swapEndianness16`. -/
def swap16 (v : BitVec 16) : BitVec 16 := ((v &&& 0xFF#16) <<< 8) ||| ((v &&& 0xFF00#16) >>> 8)

/-- `FileManager.cpp:16-19` `swapEndianness32`. -/
def swap32 (v : BitVec 32) : BitVec 32 :=
  ((v &&& 0xFF#32) <<< 24) ||| ((v &&& 0xFF00#32) <<< 8) ||| ((v &&& 0xFF0000#32) >>> 8) |||
    ((v &&& 0xFF000000#32) >>> 24)

/-- `FileManager.cpp:8-14` `swapEndianness64`. -/
def swap64 (v : BitVec 64) : BitVec 64 :=
  ((v &&& 0xFF#64) <<< 56) ||| ((v &&& 0xFF00#64) <<< 40) ||| ((v &&& 0xFF0000#64) <<< 24) |||
  ((v &&& 0xFF000000#64) <<< 8) ||| ((v &&& 0xFF00000000#64) >>> 8) ||| ((v &&& 0xFF0000000000#64) >>> 24) |||
  ((v &&& 0xFF000000000000#64) >>> 40) ||| ((v &&& 0xFF00000000000000#64) >>> 56)

/-- `write(&data, n)`: the object representation of an integer on the host. -/
def hostBytes (m : FM) (n v : Nat) : List Byte := toBytes m.ownEndianness n v

/-- `FileManager.cpp:292-295` `writeU8`. -/
def writeU8 (m : FM) (v : BitVec 8) : FM × Bool := m.write [v]

/-- `FileManager.cpp:297-303` `writeU16`. -/
def writeU16 (m : FM) (v : BitVec 16) : FM × Bool :=
  let v := if m.endianness ≠ m.ownEndianness then swap16 v else v
  m.write (m.hostBytes 2 v.toNat)

/-- `FileManager.cpp:305-311` `writeU32`. -/
def writeU32 (m : FM) (v : BitVec 32) : FM × Bool :=
  let v := if m.endianness ≠ m.ownEndianness then swap32 v else v
  m.write (m.hostBytes 4 v.toNat)

/-- `FileManager.cpp:313-319` `writeU64`. -/
def writeU64 (m : FM) (v : BitVec 64) : FM × Bool :=
  let v := if m.endianness ≠ m.ownEndianness then swap64 v else v
  m.write (m.hostBytes 8 v.toNat)

end FM
end Armips
