import Verif.Model.FileManager
import Verif.Spec.OutputFile
/-!
# C07, C08, C09: addresses, file contents and byte order
-/
namespace Armips.Props
open Armips FM Spec.Out

/-! ## C09 -/

private theorem toLE2 (v : BitVec 16) : toLE 2 v.toNat = [v.extractLsb' 0 8, v.extractLsb' 8 8] := by
  simp only [toLE]
  congr 1
  congr 1
  apply BitVec.eq_of_toNat_eq; simp [Nat.shiftRight_eq_div_pow]

private theorem toLE4 (v : BitVec 32) : toLE 4 v.toNat =
    [v.extractLsb' 0 8, v.extractLsb' 8 8, v.extractLsb' 16 8, v.extractLsb' 24 8] := by
  simp only [toLE, Nat.div_div_eq_div_mul]
  congr 1
  congr 1
  · apply BitVec.eq_of_toNat_eq; simp [Nat.shiftRight_eq_div_pow]
  congr 1
  · apply BitVec.eq_of_toNat_eq; simp [Nat.shiftRight_eq_div_pow]
  congr 1
  apply BitVec.eq_of_toNat_eq; simp [Nat.shiftRight_eq_div_pow]

private theorem toLE8 (v : BitVec 64) : toLE 8 v.toNat =
    [v.extractLsb' 0 8, v.extractLsb' 8 8, v.extractLsb' 16 8, v.extractLsb' 24 8,
     v.extractLsb' 32 8, v.extractLsb' 40 8, v.extractLsb' 48 8, v.extractLsb' 56 8] := by
  simp only [toLE, Nat.div_div_eq_div_mul]
  congr 1
  congr 1
  · apply BitVec.eq_of_toNat_eq; simp [Nat.shiftRight_eq_div_pow]
  congr 1
  · apply BitVec.eq_of_toNat_eq; simp [Nat.shiftRight_eq_div_pow]
  congr 1
  · apply BitVec.eq_of_toNat_eq; simp [Nat.shiftRight_eq_div_pow]
  congr 1
  · apply BitVec.eq_of_toNat_eq; simp [Nat.shiftRight_eq_div_pow]
  congr 1
  · apply BitVec.eq_of_toNat_eq; simp [Nat.shiftRight_eq_div_pow]
  congr 1
  · apply BitVec.eq_of_toNat_eq; simp [Nat.shiftRight_eq_div_pow]
  congr 1
  apply BitVec.eq_of_toNat_eq; simp [Nat.shiftRight_eq_div_pow]

private theorem mask_bit (w k i : Nat) (m : BitVec w) (v : BitVec w) (h : m = BitVec.ofNat w (255 * 2 ^ k)) :
    (v &&& m).getLsbD i = (v.getLsbD i && decide (k ≤ i ∧ i < k + 8 ∧ i < w)) := by
  subst h
  rw [BitVec.getLsbD_and, BitVec.getLsbD_ofNat]
  congr 1
  have e : (255 : Nat) = 2 ^ 8 - 1 := rfl
  rw [Nat.mul_comm, Nat.testBit_two_pow_mul, e, Nat.testBit_two_pow_sub_one]
  by_cases h1 : i < w <;> by_cases h2 : k ≤ i <;> by_cases h3 : i < k + 8 <;> simp [h1, h2, h3] <;> omega

private theorem swap16_bytes (v : BitVec 16) :
    (swap16 v).extractLsb' 0 8 = v.extractLsb' 8 8 ∧ (swap16 v).extractLsb' 8 8 = v.extractLsb' 0 8 := by
  constructor <;>
  · apply BitVec.eq_of_getLsbD_eq
    intro i hi
    simp only [swap16, BitVec.getLsbD_extractLsb', BitVec.getLsbD_or, BitVec.getLsbD_shiftLeft,
      BitVec.getLsbD_ushiftRight, mask_bit 16 0 _ 0xFF#16 v rfl, mask_bit 16 8 _ 0xFF00#16 v rfl]
    match i, hi with
    | 0, _ | 1, _ | 2, _ | 3, _ | 4, _ | 5, _ | 6, _ | 7, _ => simp

private theorem swap32_bytes (v : BitVec 32) :
    (swap32 v).extractLsb' 0 8 = v.extractLsb' 24 8 ∧ (swap32 v).extractLsb' 8 8 = v.extractLsb' 16 8 ∧
    (swap32 v).extractLsb' 16 8 = v.extractLsb' 8 8 ∧ (swap32 v).extractLsb' 24 8 = v.extractLsb' 0 8 := by
  refine ⟨?_, ?_, ?_, ?_⟩ <;>
  · apply BitVec.eq_of_getLsbD_eq
    intro i hi
    simp only [swap32, BitVec.getLsbD_extractLsb', BitVec.getLsbD_or, BitVec.getLsbD_shiftLeft,
      BitVec.getLsbD_ushiftRight, mask_bit 32 0 _ 0xFF#32 v rfl, mask_bit 32 8 _ 0xFF00#32 v rfl,
      mask_bit 32 16 _ 0xFF0000#32 v rfl, mask_bit 32 24 _ 0xFF000000#32 v rfl]
    match i, hi with
    | 0, _ | 1, _ | 2, _ | 3, _ | 4, _ | 5, _ | 6, _ | 7, _ => simp

private theorem swap64_bytes (v : BitVec 64) :
    (swap64 v).extractLsb' 0 8 = v.extractLsb' 56 8 ∧ (swap64 v).extractLsb' 8 8 = v.extractLsb' 48 8 ∧
    (swap64 v).extractLsb' 16 8 = v.extractLsb' 40 8 ∧ (swap64 v).extractLsb' 24 8 = v.extractLsb' 32 8 ∧
    (swap64 v).extractLsb' 32 8 = v.extractLsb' 24 8 ∧ (swap64 v).extractLsb' 40 8 = v.extractLsb' 16 8 ∧
    (swap64 v).extractLsb' 48 8 = v.extractLsb' 8 8 ∧ (swap64 v).extractLsb' 56 8 = v.extractLsb' 0 8 := by
  refine ⟨?_, ?_, ?_, ?_, ?_, ?_, ?_, ?_⟩ <;>
  · apply BitVec.eq_of_getLsbD_eq
    intro i hi
    simp only [swap64, BitVec.getLsbD_extractLsb', BitVec.getLsbD_or, BitVec.getLsbD_shiftLeft,
      BitVec.getLsbD_ushiftRight, mask_bit 64 0 _ 0xFF#64 v rfl, mask_bit 64 8 _ 0xFF00#64 v rfl,
      mask_bit 64 16 _ 0xFF0000#64 v rfl, mask_bit 64 24 _ 0xFF000000#64 v rfl,
      mask_bit 64 32 _ 0xFF00000000#64 v rfl, mask_bit 64 40 _ 0xFF0000000000#64 v rfl,
      mask_bit 64 48 _ 0xFF000000000000#64 v rfl, mask_bit 64 56 _ 0xFF00000000000000#64 v rfl]
    match i, hi with
    | 0, _ | 1, _ | 2, _ | 3, _ | 4, _ | 5, _ | 6, _ | 7, _ => simp

/-- **C09.** A 16-bit value is written in the selected byte order, whatever the host's byte order. -/
theorem writeU16_bytes (m : FM) (v : BitVec 16) : m.writeU16 v = m.write (toBytes m.endianness 2 v.toNat) := by
  obtain ⟨h1, h2⟩ := swap16_bytes v
  unfold writeU16 hostBytes
  cases he : m.endianness <;> cases ho : m.ownEndianness <;> simp [toBytes, toBE, toLE2, h1, h2]

/-- **C09.** The same for 32-bit values. -/
theorem writeU32_bytes (m : FM) (v : BitVec 32) : m.writeU32 v = m.write (toBytes m.endianness 4 v.toNat) := by
  obtain ⟨h1, h2, h3, h4⟩ := swap32_bytes v
  unfold writeU32 hostBytes
  cases he : m.endianness <;> cases ho : m.ownEndianness <;> simp [toBytes, toBE, toLE4, h1, h2, h3, h4]

/-- **C09.** The same for 64-bit values. -/
theorem writeU64_bytes (m : FM) (v : BitVec 64) : m.writeU64 v = m.write (toBytes m.endianness 8 v.toNat) := by
  obtain ⟨h1, h2, h3, h4, h5, h6, h7, h8⟩ := swap64_bytes v
  unfold writeU64 hostBytes
  cases he : m.endianness <;> cases ho : m.ownEndianness <;>
    simp [toBytes, toBE, toLE8, h1, h2, h3, h4, h5, h6, h7, h8]

/-- **C09.** Bytes need no order. -/
theorem writeU8_bytes (m : FM) (v : BitVec 8) : m.writeU8 v = m.write (toBytes m.endianness 1 v.toNat) := by
  unfold writeU8
  cases m.endianness <;> simp [toBytes, toBE, toLE]

-- 0x11223344 on a little-endian host for a big-endian target
example (files disk) : ({ endianness := .big, ownEndianness := .little, files, disk } : FM).writeU32 0x11223344#32
    = ({ endianness := .big, ownEndianness := .little, files, disk } : FM).write [0x11#8, 0x22#8, 0x33#8, 0x44#8] := by
  rw [writeU32_bytes]; rfl

/-! ## C07 -/

/-- The effect of an operation on the file manager while a file is open for writing. -/
def fmStep (m : FM) : Op → FM
  | .seekVirtual a => (m.seekVirtual a).1
  | .seekPhysical p => (m.seekPhysical p).1
  | .headerSize h => (m.execHeaderSize h).getD m
  | .advance n => (m.advanceMemory n).1
  | .write bs => (m.write bs).1

/-- File `i` is the active file, opened for writing, at cursor `c`. -/
structure At (m : FM) (i : Nat) (c : Cursor) : Prop where
  active : m.active = some i
  header : (m.files i).headerSize = c.header
  virt : (m.files i).virtualAddress = c.virt
  stream : (m.files i).stream = some c.phys

/-- Effect of a seek to a nonnegative position. -/
private theorem seekV_fields (m : FM) (i : Nat) (a : Int) (h : ¬ a - (m.files i).headerSize < 0) :
    (m.seekVirtualAFile i a).1.active = m.active ∧ (m.seekVirtualAFile i a).1.disk = m.disk ∧
    (m.seekVirtualAFile i a).1.files = fun j => if j = i then { m.files i with
      virtualAddress := a, stream := (m.files i).stream.map fun _ => (a - (m.files i).headerSize).toNat } else m.files j := by
  simp only [seekVirtualAFile, if_neg h]
  split <;> exact ⟨rfl, rfl, rfl⟩

private theorem seekP_fields (m : FM) (i : Nat) (p : Int) (h : ¬ p < 0) :
    (m.seekPhysicalAFile i p).1.active = m.active ∧ (m.seekPhysicalAFile i p).1.disk = m.disk ∧
    (m.seekPhysicalAFile i p).1.files = fun j => if j = i then { m.files i with
      virtualAddress := p + (m.files i).headerSize, stream := (m.files i).stream.map fun _ => p.toNat } else m.files j := by
  simp only [seekPhysicalAFile, if_neg h]
  split <;> exact ⟨rfl, rfl, rfl⟩

private theorem at_seekVirtual {m i c} (h : At m i c) (a : Int) :
    At (m.seekVirtualAFile i a).1 i (c.goto (a - c.header)) ∧
    (m.seekVirtualAFile i a).1.disk = m.disk ∧ (∀ j, ((m.seekVirtualAFile i a).1.files j).fileName = (m.files j).fileName) := by
  obtain ⟨h1, h2, h3, h4⟩ := h
  unfold Cursor.goto
  by_cases hn : a - (m.files i).headerSize < 0
  · have e : (m.seekVirtualAFile i a).1 = m.queueError .error "Seeking to virtual address with negative physical address" := by
      simp only [seekVirtualAFile, if_pos hn]
    rw [h2] at hn
    rw [e, if_neg (by omega)]
    exact ⟨⟨h1, h2, h3, h4⟩, rfl, fun _ => rfl⟩
  · obtain ⟨e1, e2, e3⟩ := seekV_fields m i a hn
    rw [h2] at hn
    rw [if_pos (by omega)]
    refine ⟨?_, e2, ?_⟩
    · constructor
      · rw [e1, h1]
      · rw [e3]; simp [h2]
      · rw [e3]; simp [Cursor.virt]; omega
      · rw [e3]; simp [h2, h4]
    · intro j
      rw [e3]
      by_cases hj : j = i
      · subst hj; simp
      · simp [hj]

private theorem at_seekPhysical {m i c} (h : At m i c) (p : Int) :
    At (m.seekPhysicalAFile i p).1 i (c.goto p) ∧
    (m.seekPhysicalAFile i p).1.disk = m.disk ∧ (∀ j, ((m.seekPhysicalAFile i p).1.files j).fileName = (m.files j).fileName) := by
  obtain ⟨h1, h2, h3, h4⟩ := h
  unfold Cursor.goto
  by_cases hn : p < 0
  · have e : (m.seekPhysicalAFile i p).1 = m.queueError .error "Seeking to negative physical address" := by
      simp only [seekPhysicalAFile, if_pos hn]
    rw [e, if_neg (by omega)]
    exact ⟨⟨h1, h2, h3, h4⟩, rfl, fun _ => rfl⟩
  · obtain ⟨e1, e2, e3⟩ := seekP_fields m i p hn
    rw [if_pos (show 0 ≤ p by omega)]
    refine ⟨?_, e2, ?_⟩
    · constructor
      · rw [e1, h1]
      · rw [e3]; simp [h2]
      · rw [e3]; simp [Cursor.virt, h2]; omega
      · rw [e3]; simp [h4]
    · intro j
      rw [e3]
      by_cases hj : j = i
      · subst hj; simp
      · simp [hj]

private theorem at_step {m i c} (h : At m i c) (op : Op) :
    At (fmStep m op) i (c.step op) ∧
    (∀ j, ((fmStep m op).files j).fileName = (m.files j).fileName) ∧
    (fmStep m op).disk = (match op with
      | .write bs => fun q => if q = (m.files i).fileName then
          some (writeAt ((m.disk (m.files i).fileName).getD []) c.phys bs) else m.disk q
      | _ => m.disk) := by
  have ha := h.active
  cases op with
  | seekVirtual a =>
    simp only [fmStep, seekVirtual, ha, Cursor.step]
    have := at_seekVirtual h a
    exact ⟨this.1, this.2.2, this.2.1⟩
  | seekPhysical p =>
    simp only [fmStep, seekPhysical, ha, Cursor.step]
    have := at_seekPhysical h p
    exact ⟨this.1, this.2.2, this.2.1⟩
  | headerSize hs =>
    simp only [fmStep, execHeaderSize, ha, Option.getD_some, Cursor.step]
    have hp : (m.files i).virtualAddress - (m.files i).headerSize = c.phys := by
      rw [h.virt, h.header]; unfold Cursor.virt; omega
    rw [hp]
    obtain ⟨e1, e2, e3⟩ := seekP_fields (m.setFile i { m.files i with headerSize := hs }) i c.phys (by omega)
    refine ⟨?_, ?_, e2⟩
    · constructor
      · rw [e1]; exact ha
      · rw [e3]; simp [setFile]
      · rw [e3]; simp [setFile, Cursor.virt]
      · rw [e3]; simp [setFile, h.stream]
    · intro j
      rw [e3]
      by_cases hj : j = i
      · subst hj; simp [setFile]
      · simp [hj, setFile]
  | advance n =>
    simp only [fmStep, advanceMemory, ha, Cursor.step]
    have := at_seekVirtual h ((m.files i).virtualAddress + n)
    have e : (m.files i).virtualAddress + n - c.header = c.phys + n := by rw [h.virt]; unfold Cursor.virt; omega
    rw [e] at this
    exact ⟨this.1, this.2.2, this.2.1⟩
  | write bs =>
    simp only [fmStep, write, ha, h.stream, writeAFile, Cursor.step, Cursor.goto, Option.isNone_some, Bool.false_eq_true, if_false]
    rw [if_pos (show (0 : Int) ≤ c.phys + bs.length by omega)]
    refine ⟨?_, ?_, ?_⟩
    · constructor
      · simp [setFile, setDisk, ha]
      · simp [setFile, h.header]
      · simp [setFile, h.virt, Cursor.virt]; omega
      · simp [setFile]; omega
    · intro j
      simp only [setFile, setDisk]
      split
      · subst_vars; rfl
      · rfl
    · simp [setFile, setDisk]

/-- **C07.** From any state with a file open for writing, after any sequence of operations the addresses and the header
size are those of the cursor specification: the virtual address is physical position plus header size, the
physical position is never negative, a rejected seek changes nothing, and setting the header size keeps the
physical position. The stream position is the physical position. -/
theorem fm_addresses (m : FM) (i : Nat) (c : Cursor) (h : At m i c) (ops : List Op) :
    let m' := ops.foldl fmStep m
    let c' := c.run ops
    m'.getVirtualAddress = c'.virt ∧ m'.getPhysicalAddress = c'.phys ∧ m'.getHeaderSize = c'.header ∧
    (m'.files i).stream = some c'.phys ∧ m'.active = some i := by
  have gen : At (ops.foldl fmStep m) i (c.run ops) := by
    induction ops generalizing m c with
    | nil => exact h
    | cons o os ih => exact ih _ _ (at_step h o).1
  simp only [getVirtualAddress, getPhysicalAddress, getHeaderSize, gen.active, gen.header, gen.virt, gen.stream,
    and_true, true_and]
  simp [Cursor.virt]

/-- **C07.** Opening a file for writing puts the cursor at the start with the header size it was declared with. -/
theorem fm_open (m : FM) (i : Nat) (hok : (m.openFile i false).2 = true) :
    At (m.openFile i false).1 i ⟨0, (m.files i).originalHeaderSize⟩ := by
  unfold openFile at hok ⊢
  have ho : ∀ m' : FM, (∀ j, (m'.files j).originalHeaderSize = (m.files j).originalHeaderSize) →
      (({ m' with active := some i } : FM).openAFile i false).2 = true →
      At (({ m' with active := some i } : FM).openAFile i false).1 i ⟨0, (m.files i).originalHeaderSize⟩ := by
    intro m' hm hok
    unfold openAFile at hok ⊢
    simp only [Bool.not_false, if_true] at hok ⊢
    split
    · rename_i hmode
      simp only [hmode] at hok
      split
      · rename_i hn; simp only [setFile] at hn hok; simp [hn] at hok
      · constructor <;> simp [setFile, Cursor.virt, hm]
    · constructor <;> simp [setFile, setDisk, Cursor.virt, hm]
    · rename_i original hmode
      simp only [hmode] at hok
      split
      · rename_i hn; simp only [setFile] at hn hok; simp [hn] at hok
      · constructor <;> simp [setFile, setDisk, Cursor.virt, hm]
  cases ha : m.active with
  | none => simp only [ha] at hok ⊢; exact ho m (fun _ => rfl) hok
  | some j =>
    simp only [ha] at hok ⊢
    refine ho _ (fun k => ?_) hok
    simp only [closeAFile, setFile, queueError]
    split
    · subst_vars; rfl
    · rfl

/-! ## C08 -/

private theorem writeAt_length (c : List Byte) (p : Nat) (bs : List Byte) :
    (writeAt c p bs).length = if bs.isEmpty then c.length else max c.length (p + bs.length) := by
  unfold writeAt
  split
  · rfl
  · simp; omega

private theorem writeAt_get (c : List Byte) (p : Nat) (bs : List Byte) (q : Nat) :
    (writeAt c p bs)[q]?.getD 0#8 = if p ≤ q ∧ q < p + bs.length then bs[q - p]?.getD 0#8 else c[q]?.getD 0#8 := by
  unfold writeAt
  cases bs with
  | nil => simp; intro h1 h2; omega
  | cons b bs =>
    simp only [List.isEmpty_cons, Bool.false_eq_true, if_false]
    have hl : ((c ++ List.replicate (p - c.length) 0#8).take p).length = p := by simp; omega
    rcases Nat.lt_or_ge q p with h | h
    · rw [if_neg (by omega), List.append_assoc, List.getElem?_append_left (by omega), List.getElem?_take_of_lt h]
      rcases Nat.lt_or_ge q c.length with h' | h'
      · rw [List.getElem?_append_left h']
      · rw [List.getElem?_append_right h', List.getElem?_eq_none (l := c) h']
        simp [List.getElem?_replicate]
        split <;> rfl
    · rcases Nat.lt_or_ge q (p + (b :: bs).length) with h2 | h2
      · rw [if_pos ⟨h, h2⟩, List.append_assoc, List.getElem?_append_right (by omega), hl,
          List.getElem?_append_left (by omega)]
      · rw [if_neg (by omega), List.getElem?_append_right (by rw [List.length_append, hl]; omega), List.length_append, hl,
          List.getElem?_drop]
        congr 2
        omega

/-- The writes of a history continued by one more operation. -/
private theorem writes_cons (c : Cursor) (o : Op) (os : List Op) :
    writes c (o :: os) = writes (c.step o) os ++ (match o with | .write bs => [(c.phys, bs)] | _ => []) := by
  cases o <;> simp [writes]

private theorem byteAt_append (orig mid : List Byte) (ws ws' : List (Nat × List Byte))
    (h : ∀ p, mid[p]?.getD 0#8 = byteAt orig ws' p) (p : Nat) :
    byteAt orig (ws ++ ws') p = byteAt mid ws p := by
  induction ws with
  | nil => simp [byteAt, h]
  | cons w ws ih => obtain ⟨q, bs⟩ := w; simp [byteAt, ih]

private theorem size_append (orig mid : List Byte) (ws ws' : List (Nat × List Byte))
    (h : mid.length = size orig ws') : size orig (ws ++ ws') = size mid ws := by
  induction ws with
  | nil => simp [size, h]
  | cons w ws ih => obtain ⟨q, bs⟩ := w; simp [size, ih]

/-- **C08.** After any history of operations on an open file, every byte of the file on disk is the last one written
there, or the original one, or zero where nothing was ever written; the size is as specified, and no other file changes. -/
theorem fm_contents (m : FM) (i : Nat) (c : Cursor) (h : At m i c) (orig : List Byte)
    (hd : m.disk (m.files i).fileName = some orig) (ops : List Op) :
    ∃ content, (ops.foldl fmStep m).disk (m.files i).fileName = some content ∧
      content.length = size orig (writes c ops) ∧
      (∀ p, p < content.length → content[p]? = some (byteAt orig (writes c ops) p)) ∧
      (∀ q, q ≠ (m.files i).fileName → (ops.foldl fmStep m).disk q = m.disk q) := by
  have gen : ∃ content, (ops.foldl fmStep m).disk (m.files i).fileName = some content ∧
      content.length = size orig (writes c ops) ∧
      (∀ p, content[p]?.getD 0#8 = byteAt orig (writes c ops) p) ∧
      (∀ q, q ≠ (m.files i).fileName → (ops.foldl fmStep m).disk q = m.disk q) := by
    induction ops generalizing m c orig with
    | nil => exact ⟨orig, hd, rfl, fun _ => rfl, fun _ _ => rfl⟩
    | cons o os ih =>
      obtain ⟨s1, s2, s3⟩ := at_step h o
      rw [List.foldl_cons, writes_cons]
      cases o with
      | write bs =>
        simp only at s3
        rw [hd] at s3
        obtain ⟨content, e1, e2, e3, e4⟩ := ih (fmStep m (.write bs)) _ s1 (writeAt orig c.phys bs)
          (by rw [s3, s2 i]; simp)
        rw [s2 i] at e1 e4
        refine ⟨content, e1, ?_, ?_, ?_⟩
        · rw [e2]
          refine (size_append _ _ _ _ ?_).symm
          simp only [size, writeAt_length]
        · intro p
          rw [e3]
          refine (byteAt_append _ _ _ _ (fun p => ?_) p).symm
          rw [writeAt_get]; simp only [byteAt]
        · intro q hq
          rw [e4 q hq, s3]; simp [hq]
      | _ =>
        simp only at s3
        obtain ⟨content, e1, e2, e3, e4⟩ := ih _ _ s1 orig (by rw [s3, s2 i]; exact hd)
        rw [s2 i] at e1 e4
        refine ⟨content, e1, by simpa using e2, by simpa using e3, fun q hq => by rw [e4 q hq, s3]⟩
  obtain ⟨content, e1, e2, e3, e4⟩ := gen
  refine ⟨content, e1, e2, fun p hp => ?_, e4⟩
  rw [← e3 p, List.getElem?_eq_getElem hp]; simp

/-- **C08.** What a successful opening for writing makes of the file: nothing for `.open`, an empty file for `.create`, a
copy for the two-argument `.open`; other files are untouched. -/
theorem fm_open_contents (m : FM) (i : Nat) (hok : (m.openFile i false).2 = true) :
    let f := m.files i
    (m.openFile i false).1.disk f.fileName = (match f.mode with
      | .open_ => m.disk f.fileName
      | .create => some []
      | .copy original => m.disk original) ∧
    ((m.openFile i false).1.disk f.fileName).isSome ∧
    ∀ q, q ≠ f.fileName → (m.openFile i false).1.disk q = m.disk q := by
  unfold openFile at hok ⊢
  have ho : ∀ m' : FM, m'.disk = m.disk → (∀ j, (m'.files j).mode = (m.files j).mode ∧ (m'.files j).fileName = (m.files j).fileName) →
      (({ m' with active := some i } : FM).openAFile i false).2 = true →
      let f := m.files i
      (({ m' with active := some i } : FM).openAFile i false).1.disk f.fileName = (match f.mode with
        | .open_ => m.disk f.fileName
        | .create => some []
        | .copy original => m.disk original) ∧
      ((({ m' with active := some i } : FM).openAFile i false).1.disk f.fileName).isSome ∧
      ∀ q, q ≠ f.fileName → (({ m' with active := some i } : FM).openAFile i false).1.disk q = m.disk q := by
    intro m' hdisk hm hok
    obtain ⟨hm1, hm2⟩ := hm i
    unfold openAFile at hok ⊢
    simp only [Bool.not_false, if_true, hm1, hm2] at hok ⊢
    split
    · rename_i hmode
      simp only [hmode] at hok
      split
      · rename_i hn; simp only [setFile] at hn hok; simp [hn] at hok
      · rename_i hn
        simp only [setFile] at hn ⊢
        rw [hdisk] at hn ⊢
        refine ⟨by simp only [hmode], ?_, fun _ _ => rfl⟩
        cases hx : m.disk (m.files i).fileName <;> simp [hx] at hn ⊢
    · rename_i hmode
      refine ⟨by simp [setFile, setDisk, hmode], by simp [setFile, setDisk], ?_⟩
      intro q hq; simp [setFile, setDisk, hq, hdisk]
    · rename_i original hmode
      simp only [hmode] at hok
      split
      · rename_i hn; simp only [setFile] at hn hok; simp [hn] at hok
      · rename_i cc hn
        simp only [setFile] at hn
        rw [hdisk] at hn
        refine ⟨by simp [setFile, setDisk, hn, hmode], by simp [setFile, setDisk], ?_⟩
        intro q hq; simp [setFile, setDisk, hq, hdisk]
  cases ha : m.active with
  | none => simp only [ha] at hok ⊢; exact ho m rfl (fun _ => ⟨rfl, rfl⟩) hok
  | some j =>
    simp only [ha] at hok ⊢
    refine ho _ rfl (fun k => ?_) hok
    simp only [closeAFile, setFile, queueError]
    split
    · subst_vars; exact ⟨rfl, rfl⟩
    · exact ⟨rfl, rfl⟩

/-- **C08.** Opening in check-only mode (as every validation pass does) never changes the disk, and a file so opened can
not be written. -/
theorem fm_check_only (m : FM) (i : Nat) (hs : (m.files i).stream = none) (bs : List Byte) :
    (m.openFile i true).1.disk = m.disk ∧ ((m.openFile i true).1.write bs).1.disk = m.disk := by
  unfold openFile
  have ho : ∀ m' : FM, m'.disk = m.disk → (m'.files i).stream = none →
      (({ m' with active := some i } : FM).openAFile i true).1.disk = m.disk ∧
      ((({ m' with active := some i } : FM).openAFile i true).1.files i).stream = none ∧
      (({ m' with active := some i } : FM).openAFile i true).1.active = some i := by
    intro m' hd hn
    unfold openAFile
    simp only [Bool.not_true, Bool.false_eq_true, if_false]
    split
    · split <;> simp [setFile, queueError, hd, hn]
    · simp [setFile, hd, hn]
    · split
      · simp [setFile, queueError, hd, hn]
      · split <;> simp [setFile, queueError, hd, hn]
  have fin : ∀ m' : FM, m'.disk = m.disk → (m'.files i).stream = none →
      (({ m' with active := some i } : FM).openAFile i true).1.disk = m.disk ∧
      ((({ m' with active := some i } : FM).openAFile i true).1.write bs).1.disk = m.disk := by
    intro m' hd hn
    obtain ⟨h1, h2, h3⟩ := ho m' hd hn
    refine ⟨h1, ?_⟩
    unfold write
    rw [h3]
    simp only [h2, Option.isNone_none, if_true]
    simpa [queueError] using h1
  cases ha : m.active with
  | none => exact fin m rfl hs
  | some j =>
    refine fin _ rfl ?_
    simp only [closeAFile, setFile, queueError]
    split
    · rfl
    · exact hs

/-- `.headersize` before any file is opened makes the assembler dereference a null pointer. -/
theorem headersize_without_file_ub (m : FM) (h : m.active = none) (s : Int) : m.execHeaderSize s = none := by
  simp [execHeaderSize, h]

-- a concrete run: create a file with header size 0x8000000, move, write over a gap, overwrite
example : ∃ m : FM, (m.openFile 0 false).2 = true ∧
    (([.seekVirtual 0x8000002, .write [1#8, 2#8], .headerSize 0, .seekVirtual 3, .write [9#8]] : List Op).foldl fmStep
      (m.openFile 0 false).1).disk "out" = some [0#8, 0#8, 1#8, 9#8] :=
  ⟨{ files := fun _ => newFile "out" .create 0x8000000, disk := fun _ => none }, by decide, by decide⟩

end Armips.Props
