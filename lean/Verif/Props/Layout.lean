import Verif.Props.Assembler
import Verif.Spec.Sample
/-!
# C02, C04, C05, C06, C15, C19, C20, C48, C49, C50: the output of a successful run

Each theorem takes a successful run of `assemble` and speaks about the walk over the program that explains it
(`Spec.Layout.Assembled`: which commands were executed, at which addresses, and which bytes the final disk got from them).
-/
namespace Armips.Props
open Armips Spec.Layout Spec.Out Table

/-- The assembler was run on program `c` and returned success. -/
structure Succeeds (E : Env) (c : Cmd) (st0 : St) (o : Outcome c) : Prop where
  fresh : Fresh st0
  run : ∃ fuel, assemble E c fuel st0 = .done o
  success : o.success = true

theorem Succeeds.layout {E c st0 o} (h : Succeeds E c st0 o) :
    ∃ R R' vs, Assembled E c st0 o.st R R' vs ∧ ∀ i, vs.countP (definesLabel i) ≤ 1 := by
  obtain ⟨fuel, hr⟩ := h.run
  exact assembled_layout h.fresh hr h.success

/-! ## C02 -/

/-- C02. After a successful run every label (or function) command that was executed has given its label the virtual address
that the walk has there, and the physical position too. -/
theorem label_is_address {E c st0 o} (h : Succeeds E c st0 o) :
    ∃ R R' vs, Assembled E c st0 o.st R R' vs ∧
      ∀ v ∈ vs, ∀ id, (v.cmd = .label id none ∨ ∃ content, v.cmd = .function id content) →
        ∃ l, o.st.syms.labels[id]? = some l ∧ l.defined = true ∧ l.value = v.before.virt ∧
          l.physicalValue = some v.before.phys := by
  obtain ⟨R, R', vs, hA, _⟩ := h.layout
  refine ⟨R, R', vs, hA, fun v hv id hcmd => ?_⟩
  obtain ⟨b, ws, hl, _⟩ := hA.lays.visit v hv
  obtain ⟨cmd, before, after⟩ := v
  dsimp only at hl hcmd ⊢
  rcases hcmd with rfl | ⟨content, rfl⟩
  · cases hl with
    | label hl => obtain ⟨l, h1, h2, h3⟩ := hl; exact ⟨l, h1, h2, h3⟩
  · cases hl with
    | function hl _ => obtain ⟨l, h1, h2, h3⟩ := hl; exact ⟨l, h1, h2, h3⟩

/-- C02. Bytes that a command wrote are in the final output, at the position where the walk was, except those that a later
command replaced. -/
theorem bytes_in_output {E c st0 o R R' vs} (hA : Assembled E c st0 o R R' vs) :
    ∀ v ∈ vs, ∀ p pos bs, Wrote v.before v.after p pos bs →
      ∃ later, R'.out = v.after.out ++ later ∧
        ∀ k (hk : k < bs.length), (∀ e ∈ later, ¬ e.touches p (pos + k)) →
          ∃ content, o.fm.disk p = some content ∧ content[pos + k]? = some bs[k] := by
  intro v hv p pos bs hw
  obtain ⟨_, _, _, _, _, later, hl⟩ := hA.lays.visit v hv
  refine ⟨later, hl.symm, fun k hk ht => ?_⟩
  rw [hA.disk, ← hl, hw]
  exact after_written hk ht

/-- C02. What is written right behind a label lies at the label's value and physical value. -/
theorem label_points_at_bytes {E c st0 o} (h : Succeeds E c st0 o) :
    ∃ R R' vs, Assembled E c st0 o.st R R' vs ∧
      ∀ v ∈ vs, ∀ id, v.cmd = .label id none →
      ∀ w ∈ vs, w.before = v.after → ((∃ mode es t, w.cmd = .data mode es t) ∨ ∃ sem, w.cmd = .instr sem) →
        ∃ l i, ∃ pos : Nat, ∃ bs, o.st.syms.labels[id]? = some l ∧ l.value = w.before.virt ∧ l.physicalValue = some (pos : Int) ∧
          w.before.file.map (·.1) = some i ∧
          Wrote w.before w.after (st0.fm.files i).fileName pos bs ∧ w.after.virt = w.before.virt + bs.length := by
  obtain ⟨R, R', vs, hA, _⟩ := h.layout
  refine ⟨R, R', vs, hA, fun v hv id hcmd w hw hvw hwc => ?_⟩
  obtain ⟨b, ws, hl, _⟩ := hA.lays.visit v hv
  obtain ⟨b', ws', hl', _⟩ := hA.lays.visit w hw
  obtain ⟨cmd, before, after⟩ := v
  obtain ⟨cmd', before', after'⟩ := w
  dsimp only at hl hl' hcmd hvw hwc ⊢
  subst hvw hcmd
  have key : ∃ l, o.st.syms.labels[id]? = some l ∧ l.value = before'.virt ∧ l.physicalValue = some before'.phys := by
    cases hl with
    | label hl => obtain ⟨l, h1, _, h3⟩ := hl; exact ⟨l, h1, h3⟩
  obtain ⟨l, h1, h2, h3⟩ := key
  have hem : ∃ bs R1, R1.file = before'.file ∧ R1.out = before'.out ∧ Emits (finalParams E st0 o.st) R1 bs after' := by
    rcases hwc with ⟨mode, es, t, rfl⟩ | ⟨sem, rfl⟩
    · cases hl' with
      | data _ he => exact ⟨_, _, rfl, rfl, he⟩
    · cases hl' with
      | instr _ _ h1 he => exact ⟨_, _, by rw [h1], by rw [h1], he⟩
  obtain ⟨bs, R1, hf, ho, he⟩ := hem
  obtain ⟨i, cur, e1, e2, e3, e4, e5⟩ := he.wrote
  have hv1 : R1.virt = before'.virt := by unfold Pos.virt; rw [hf]
  have hp1 : R1.phys = before'.phys := by unfold Pos.phys; rw [hf]
  refine ⟨l, i, cur.phys, bs, h1, h2, ?_, ?_, ?_, ?_⟩
  · rw [h3, ← hp1, e5]
  · rw [← hf, e1]; rfl
  · unfold Wrote at e2 ⊢; rw [← ho]; exact e2
  · rw [e4, hv1]

/-! ## C04 -/

/-- C04. In a successful run, what a position, skip or header size command did, the branch a conditional took, the bytes a
data command wrote, the value of a label with an expression and the bytes of an instruction come from evaluating their
expressions with the labels' final values (`o.st.syms`), at the address where the command stands. -/
theorem final_values_used {E c st0 o} (h : Succeeds E c st0 o) :
    ∃ R R' vs, Assembled E c st0 o.st R R' vs ∧ ∀ v ∈ vs,
      (∀ e, v.cmd = .position true e → Evals (finalParams E st0 o.st) v.before e (.int v.after.virt)) ∧
      (∀ e, v.cmd = .position false e → Evals (finalParams E st0 o.st) v.before e (.int v.after.phys)) ∧
      (∀ e, v.cmd = .skip e → Evals (finalParams E st0 o.st) v.before e (.int (v.after.phys - v.before.phys))) ∧
      (∀ e, v.cmd = .headerSize e → Evals (finalParams E st0 o.st) v.before e (.int (v.after.virt - v.after.phys))) ∧
      (∀ id e, v.cmd = .label id (some e) →
        ∃ l, o.st.syms.labels[id]? = some l ∧ Evals (finalParams E st0 o.st) v.before e (.int l.value)) ∧
      (∀ mode es t, v.cmd = .data mode es t →
        ∃ bs p pos, DataBytes (finalParams E st0 o.st) v.before mode es t bs ∧ Wrote v.before v.after p pos bs) ∧
      (∀ mode e fill, v.cmd = .align mode e fill →
        ∃ value n : Int, Evals (finalParams E st0 o.st) v.before e (.int value) ∧
          Padding mode v.before.virt v.before.phys value n ∧ v.after.virt = v.before.virt + n) ∧
      (∀ sem, v.cmd = .instr sem →
        ∃ out as ds p pos, sem.run (Spec.Layout.ctx (finalParams E st0 o.st) v.before) v.before.archSt = .ok (out, as) ds ∧ NoErrors ds ∧
          Wrote v.before v.after p pos
            (unitBytes v.before.endian (out.words (if out.pool.isSome then o.st.poolAddr v.before.requests else none)))) := by
  obtain ⟨R, R', vs, hA, _⟩ := h.layout
  refine ⟨R, R', vs, hA, fun v hv => ?_⟩
  obtain ⟨b, ws, hl, _⟩ := hA.lays.visit v hv
  obtain ⟨cmd, before, after⟩ := v
  dsimp only at hl ⊢
  refine ⟨?_, ?_, ?_, ?_, ?_, ?_, ?_, ?_⟩
  · rintro e rfl
    cases hl with
    | org h1 h2 h3 =>
      obtain ⟨i, cur, hf, j, cur', n, hf', hn, rfl⟩ := h3
      rw [hf] at hf'
      injection hf' with hf'; injection hf' with _ hf'; subst hf'
      have : ∀ a, (n : Int) = a - cur.header → (n : Int) + cur.header = a := fun a ha => by omega
      show Evals _ _ _ (.int ((n : Int) + cur.header))
      rw [this _ hn]; exact h1
  · rintro e rfl
    cases hl with
    | orga h1 h2 h3 =>
      obtain ⟨i, cur, n, hf, hn, rfl⟩ := h3
      show Evals _ _ _ (.int (n : Int))
      rw [hn]; exact h1
  · rintro e rfl
    cases hl with
    | @skip _ _ k _ R1 _ h1 h2 h3 =>
      have := h2.phys
      obtain ⟨i, cur, n, hf, hn, rfl⟩ := h3
      show Evals _ _ _ (.int ((n : Int) - before.phys))
      rw [this] at hn
      have h' : (n : Int) - before.phys = k := by omega
      rw [h']; exact h1
  · rintro e rfl
    cases hl with
    | @headerSize _ _ hh i cur _ _ h1 h2 h3 =>
      subst h3
      have : (cur.phys : Int) + hh - cur.phys = hh := by omega
      show Evals _ _ _ (.int ((cur.phys : Int) + hh - cur.phys))
      rw [this]; exact h1
  · rintro id e rfl
    cases hl with
    | label hl => obtain ⟨l, h1, _, h3⟩ := hl; exact ⟨l, h1, h3⟩
  · rintro mode es t rfl
    cases hl with
    | data h1 h2 =>
      obtain ⟨i, cur, _, e2, _⟩ := h2.wrote
      exact ⟨_, _, _, h1, e2⟩
  · rintro mode e fill rfl
    cases hl with
    | @align _ _ _ _ value f n _ R1 _ h1 h2 h3 h4 h5 =>
      refine ⟨value, n, h1, h2, ?_⟩
      obtain ⟨i, cur, _, _, _, e4, _⟩ := h5.wrote
      have hn : 0 ≤ n := by unfold Padding at h2; split at h2 <;> first | exact h2.2.2.1 | exact h2.2
      rw [e4, h4.virt, List.length_replicate]
      omega
  · rintro sem rfl
    cases hl with
    | @instr _ _ out as ds _ R1 _ h1 h2 h3 h4 =>
      obtain ⟨i, cur, _, e2, _⟩ := h4.wrote
      refine ⟨out, as, ds, ((finalParams E st0 o.st).files i).fileName, cur.phys, h1, h2, ?_⟩
      unfold Wrote at e2 ⊢
      rw [h3] at e2
      exact e2

/-! ## C05 -/

/-- C05. The test for a power of two is exact on the 64-bit integers (except the least one, where it is undefined). -/
theorem isPowerOfTwo_exact (n : Int) (h : InI64 n) (hm : n ≠ -(2 ^ 63)) :
    isPowerOfTwo n = some true ∧ (∃ k : Nat, n = 2 ^ k) ∨ isPowerOfTwo n = some false ∧ ¬ ∃ k : Nat, n = 2 ^ k := by
  have hsome : isPowerOfTwo n = some true ∨ isPowerOfTwo n = some false := by
    unfold isPowerOfTwo
    split
    · exact .inr rfl
    · rw [if_neg (by rintro (h' | h'); exact hm h'; exact h' h)]
      cases (decide ((BitVec.ofInt 64 n &&& BitVec.ofInt 64 (n - 1)) = 0#64)) <;> simp
  rcases hsome with ht | hf
  · exact .inl ⟨ht, isPowerOfTwo_spec ht⟩
  · refine .inr ⟨hf, ?_⟩
    rintro ⟨k, rfl⟩
    have hk : k < 63 := by
      rcases Nat.lt_or_ge k 63 with h' | h'
      · exact h'
      · have h1 : (2 : Int) ^ 63 ≤ 2 ^ k := by exact_mod_cast Nat.pow_le_pow_right (by omega) h'
        have := h.2
        omega
    have : ∀ j : Fin 63, isPowerOfTwo (2 ^ j.val) = some true := by decide +kernel
    rw [this ⟨k, hk⟩] at hf
    exact nomatch hf

/-- C05. A `.align` or `.aligna` whose value is not a power of two reports an error and moves nothing. -/
theorem align_rejects {E mode e fill old st st1} {n : Int} (hm : mode ≠ .fill) (he : st.evalInt E e = some (st1, some n)) (hn : InI64 n)
    (hmin : n ≠ -(2 ^ 63)) (hp : ¬ ∃ k : Nat, n = 2 ^ k) :
    validateAlign E mode e fill old st = some (old, st1.queueError .error "Invalid alignment", false) := by
  unfold validateAlign
  rw [he]
  dsimp only
  rw [if_neg hm]
  rcases isPowerOfTwo_exact n hn hmin with ⟨_, h⟩ | ⟨h, _⟩
  · exact absurd h hp
  · rw [h]

/-- C05. In a successful run a `.align` (`.aligna`) was given a power of two; from a nonnegative address it moved to the least multiple
that is not below it, and wrote the fill value to all bytes passed over. -/
theorem align_minimal {E c st0 o} (h : Succeeds E c st0 o) :
    ∃ R R' vs, Assembled E c st0 o.st R R' vs ∧ ∀ v ∈ vs, ∀ mode e fill, v.cmd = .align mode e fill → mode ≠ .fill →
      ∃ (k n : Nat) (f : Int) (p : String) (pos : Nat),
        Evals (finalParams E st0 o.st) v.before e (.int (2 ^ k)) ∧
        Wrote v.before v.after p pos (List.replicate n (BitVec.ofInt 8 f)) ∧
        Operand (finalParams E st0 o.st) v.before fill 0 f ∧
        v.after.virt = v.before.virt + n ∧ v.after.phys = v.before.phys + n ∧
        (mode = .virtual → 0 ≤ v.before.virt → (2 ^ k ∣ v.after.virt) ∧ ∀ a, v.before.virt ≤ a → 2 ^ k ∣ a → v.after.virt ≤ a) ∧
        (mode = .physical → (2 ^ k ∣ v.after.phys) ∧ ∀ a, v.before.phys ≤ a → 2 ^ k ∣ a → v.after.phys ≤ a) := by
  obtain ⟨R, R', vs, hA, _⟩ := h.layout
  refine ⟨R, R', vs, hA, fun v hv mode e fill hcmd hmode => ?_⟩
  obtain ⟨b, ws, hl, _⟩ := hA.lays.visit v hv
  obtain ⟨cmd, before, after⟩ := v
  dsimp only at hl hcmd ⊢
  subst hcmd
  have least : ∀ (k : Nat) (x : Int) (n : Int), (2 ^ k : Int) ∣ x + n → 0 ≤ n → n < 2 ^ k →
      ∀ a, x ≤ a → (2 ^ k : Int) ∣ a → x + n ≤ a := by
    intro k x n h1 _ h2 a h3 h4
    obtain ⟨u, hu⟩ := Int.dvd_sub h4 h1
    by_cases hu0 : u < 0
    · have : (2 ^ k : Int) * u ≤ 2 ^ k * (-1) := Int.mul_le_mul_of_nonneg_left (by omega) (Int.le_of_lt (Int.pow_pos (by omega)))
      omega
    · have : (0 : Int) ≤ 2 ^ k * u := Int.mul_nonneg (Int.le_of_lt (Int.pow_pos (by omega))) (by omega)
      omega
  cases hl with
  | @align _ _ _ _ value f n _ R1 _ h1 h2 h3 h4 h5 =>
    obtain ⟨i, cur, _, e2, e3, e4, _⟩ := h5.wrote
    rw [h4.virt] at e4
    rw [h4.phys] at e3
    have hw : Wrote before after ((finalParams E st0 o.st).files i).fileName cur.phys
        (List.replicate n.toNat (if fill.isSome then BitVec.ofInt 8 f else 0#8)) := by
      unfold Wrote at e2 ⊢; rw [← h4.out]; exact e2
    have hpow : ∃ k : Nat, value = 2 ^ k := by
      cases mode with
      | fill => exact absurd rfl hmode
      | virtual => exact h2.1
      | physical => exact h2.1
    obtain ⟨k, rfl⟩ := hpow
    have hn : 0 ≤ n := by unfold Padding at h2; split at h2 <;> first | exact h2.2.2.1 | exact h2.2
    have hnn : ((List.replicate n.toNat (if fill.isSome then BitVec.ofInt 8 f else 0#8)).length : Int) = n := by
      rw [List.length_replicate]; omega
    rw [hnn] at e3 e4
    have hf : ∃ f', Operand (finalParams E st0 o.st) before fill 0 f' ∧
        (if fill.isSome then BitVec.ofInt 8 f else 0#8) = BitVec.ofInt 8 f' := by
      cases fill with
      | none => exact ⟨0, rfl, by simp⟩
      | some fe => exact ⟨f, h3 rfl, by simp⟩
    obtain ⟨f', hf1, hf2⟩ := hf
    rw [hf2] at hw
    have hnt : ((n.toNat : Nat) : Int) = n := Int.toNat_of_nonneg hn
    refine ⟨k, n.toNat, f', _, cur.phys, h1, hw, hf1, ?_, ?_, ?_, ?_⟩
    · rw [hnt]; exact e4
    · rw [hnt]; exact e3
    · rintro rfl h0
      have h2' : (∃ j : Nat, (2 ^ k : Int) = 2 ^ j) ∧ (2 ^ k : Int) ∣ before.virt + n ∧ 0 ≤ n ∧
        n < 2 ^ k + (if before.virt < 0 then (2 ^ k : Int) else 0) := h2
      rw [if_neg (by omega)] at h2'
      rw [e4]
      exact ⟨h2'.2.1, least k _ _ h2'.2.1 hn (by omega)⟩
    · rintro rfl
      have h2' : (∃ j : Nat, (2 ^ k : Int) = 2 ^ j) ∧ (2 ^ k : Int) ∣ before.phys + n ∧ 0 ≤ n ∧ n < 2 ^ k := h2
      rw [e3]
      exact ⟨h2'.2.1, least k _ _ h2'.2.1 hn h2'.2.2.2⟩

/-! ## C06 -/

/-- C06. In a successful run `.fill n, f` wrote exactly `n` bytes equal to `f` at consecutive positions, and `.skip n` moved
by `n` and wrote nothing. -/
theorem fill_skip_exact {E c st0 o} (h : Succeeds E c st0 o) :
    ∃ R R' vs, Assembled E c st0 o.st R R' vs ∧ ∀ v ∈ vs,
      (∀ e fill, v.cmd = .align .fill e fill → ∃ (n : Nat) (f : Int) (i pos : Nat),
        Evals (finalParams E st0 o.st) v.before e (.int n) ∧ Operand (finalParams E st0 o.st) v.before fill 0 f ∧
        (pos : Int) = v.before.phys ∧ v.before.file.map (·.1) = some i ∧
        Wrote v.before v.after (st0.fm.files i).fileName pos (List.replicate n (BitVec.ofInt 8 f)) ∧
        v.after.virt = v.before.virt + n) ∧
      (∀ e, v.cmd = .skip e → ∃ n : Int, Evals (finalParams E st0 o.st) v.before e (.int n) ∧
        v.after.virt = v.before.virt + n ∧ v.after.out = v.before.out) := by
  obtain ⟨R, R', vs, hA, _⟩ := h.layout
  refine ⟨R, R', vs, hA, fun v hv => ?_⟩
  obtain ⟨b, ws, hl, _⟩ := hA.lays.visit v hv
  obtain ⟨cmd, before, after⟩ := v
  dsimp only at hl ⊢
  constructor
  · rintro e fill rfl
    cases hl with
    | @align _ _ _ _ value f n _ R1 _ h1 h2 h3 h4 h5 =>
      obtain ⟨i, cur, e1, e2, e3, e4, e5⟩ := h5.wrote
      have h2' : n = value ∧ 0 ≤ n := h2
      obtain ⟨rfl, hn⟩ := h2'
      have hf : ∃ f', Operand (finalParams E st0 o.st) before fill 0 f' ∧
          (if fill.isSome then BitVec.ofInt 8 f else 0#8) = BitVec.ofInt 8 f' := by
        cases fill with
        | none => exact ⟨0, rfl, by simp⟩
        | some fe => exact ⟨f, h3 rfl, by simp⟩
      obtain ⟨f', hf1, hf2⟩ := hf
      rw [hf2] at e2 e4
      have hnt : ((n.toNat : Nat) : Int) = n := Int.toNat_of_nonneg hn
      refine ⟨n.toNat, f', i, cur.phys, by rw [hnt]; exact h1, hf1, ?_, ?_, ?_, ?_⟩
      · rw [← e5, h4.phys]
      · rw [← h4.file, e1]; rfl
      · unfold Wrote at e2 ⊢; rw [← h4.out]; exact e2
      · rw [e4, h4.virt, List.length_replicate]
  · rintro e rfl
    cases hl with
    | @skip _ _ k _ R1 _ h1 h2 h3 =>
      refine ⟨k, h1, ?_, by rw [h3.out, h2.out]⟩
      have hvirt := h2.virt
      obtain ⟨i, cur, n, hf, hn, rfl⟩ := h3
      show (n : Int) + cur.header = _
      rw [← hvirt]
      unfold Pos.virt
      rw [hf]
      unfold Pos.phys at hn
      rw [hf] at hn
      dsimp only at hn ⊢
      unfold Cursor.virt
      omega

/-! ## C15 -/

/-- C15. In a successful run no label is defined by two of the commands that were executed. -/
theorem label_defined_once {E c st0 o} (h : Succeeds E c st0 o) :
    ∃ R R' vs, Assembled E c st0 o.st R R' vs ∧ ∀ id, vs.countP (definesLabel id) ≤ 1 := h.layout

/-- C15. A command that has not defined its label in an earlier pass and finds it defined reports an error. -/
theorem second_definition_rejected {E id value st l} (hl : st.label id = some l) (hd : l.defined = true) :
    validateLabel E id value false st = some (false, st.queueError .error "Label already defined", false) := by
  unfold validateLabel
  rw [hl]
  dsimp only
  rw [if_pos ⟨rfl, hd⟩]

/-! ## C48 -/

/-- C48. In a successful run `.incbin file, s, n` wrote the bytes from `s` up to `s + n`, or up to the end of the file if that
comes first. `fileSize` is the size the file had when the directive was parsed. -/
theorem incbin_slice {E c st0 o} (h : Succeeds E c st0 o) :
    ∃ R R' vs, Assembled E c st0 o.st R R' vs ∧ ∀ v ∈ vs, ∀ file fileSize sE nE, v.cmd = .incbin file fileSize sE nE →
      ∃ (s n : Int) (bs : List Byte) (p : String) (pos : Nat),
        Operand (finalParams E st0 o.st) v.before sE 0 s ∧ Operand (finalParams E st0 o.st) v.before nE (fileSize - s) n ∧
        (sE.isSome → s ≤ fileSize) ∧ Wrote v.before v.after p pos bs ∧ v.after.virt = v.before.virt + bs.length ∧
        (bs.length : Int) = min (s + n) fileSize - s ∧
        (bs ≠ [] → ∃ content, Spec.Layout.after st0.fm.disk v.before.out file = some content ∧ 0 ≤ s ∧
          ∀ k (hk : k < bs.length), content[s.toNat + k]? = some bs[k]) := by
  obtain ⟨R, R', vs, hA, _⟩ := h.layout
  refine ⟨R, R', vs, hA, fun v hv file fileSize sE nE hcmd => ?_⟩
  obtain ⟨b, ws, hl, _⟩ := hA.lays.visit v hv
  obtain ⟨cmd, before, after⟩ := v
  dsimp only at hl hcmd ⊢
  subst hcmd
  cases hl with
  | @incbin _ _ _ _ _ s n size bs _ R1 _ h1 h2 h3 h4 h5 h6 h7 =>
    obtain ⟨i, cur, e1, e2, e3, e4, e5⟩ := h7.wrote
    have hlen : (bs.length : Int) = size := by
      rcases h5 with ⟨h5, rfl⟩ | ⟨content, _, _, _, _, rfl⟩
      · rw [h5]; rfl
      · simp only [List.length_take, List.length_drop]; omega
    refine ⟨s, n, bs, ((finalParams E st0 o.st).files i).fileName, cur.phys, h1, h3, h2, ?_, ?_, ?_, ?_⟩
    · unfold Wrote at e2 ⊢; rw [← h6.out]; exact e2
    · rw [e4, h6.virt]
    · clear h5; rw [hlen, h4]; omega
    · intro hne
      rcases h5 with ⟨_, h5⟩ | ⟨content, hc, h0, _, hle, hbs⟩
      · exact absurd h5 hne
      · refine ⟨content, hc, h0, fun k hk => ?_⟩
        subst hbs
        simp only [List.length_take, List.length_drop] at hk
        rw [List.getElem_take, List.getElem_drop, List.getElem?_eq_getElem]

/-- C48. A start position behind the end of the file is an error; nothing is advanced. -/
theorem incbin_start_past_end {E fileSize e sizeE old st st1} {s : Int} (he : st.evalInt E e = some (st1, some s)) (hs : s > fileSize) :
    validateIncbin E fileSize (some e) sizeE old st = some ((s, old.2), st1.queueError .error "Start position past end of file") := by
  unfold validateIncbin St.evalIntOpt
  dsimp only
  rw [he]
  dsimp only
  rw [if_pos ⟨rfl, hs⟩]

/-- C48. Asking for more than is there gives a warning, and the size becomes what is there. -/
theorem incbin_truncation_warns {E fileSize e e' old st st1 st2} {s n : Int} (he : st.evalInt E e = some (st1, some s)) (hs : s ≤ fileSize)
    (he' : st1.evalInt E e' = some (st2, some n)) (hn : s + n > fileSize) :
    validateIncbin E fileSize (some e) (some e') old st = some ((s, fileSize - s),
      (st2.queueError .warning "Read size truncated due to file size").nextSection.advance (fileSize - s)) := by
  unfold validateIncbin St.evalIntOpt
  dsimp only
  rw [he]
  dsimp only
  rw [if_neg (by omega), he']
  dsimp only
  rw [if_pos hn]

/-! ## C49 -/

/-- C49. In a successful run a conditional contributed exactly what the branch selected by its condition does: the commands executed
for it are those of this branch, from the position before to the position after it. -/
theorem cond_selects_one {E c st0 o} (h : Succeeds E c st0 o) :
    ∃ R R' vs, Assembled E c st0 o.st R R' vs ∧ ∀ v ∈ vs, ∀ kind x y, v.cmd = .cond kind x y →
      ∃ b t pre ws post, vs = pre ++ v :: ws ++ post ∧ Decides (finalParams E st0 o.st) v.before kind t ∧
        Lays (finalParams E st0 o.st) b (if t then x else y) v.before v.after ws := by
  obtain ⟨R, R', vs, hA, _⟩ := h.layout
  refine ⟨R, R', vs, hA, fun v hv kind x y hcmd => ?_⟩
  obtain ⟨b, pre, ws, post, hvs, hl⟩ := hA.lays.within v hv
  obtain ⟨cmd, before, after⟩ := v
  dsimp only at hl hcmd ⊢
  subst hcmd
  cases hl with
  | cond h1 h2 => exact ⟨b, _, pre, _, post, hvs, h1, h2⟩

/-- C49. In no pass does the branch that is not selected have an effect: the new state and the request for another pass are the same
whatever stands there. -/
theorem cond_other_branch_inert {E passes kind x y y' nf prev m1 m2 m2' st st1} (h : evalCond E kind st = some (st1, true)) :
    (validate E passes (.cond kind x y) nf (prev, m1, m2) st).map (fun r => (r.2.1, r.2.2)) =
    (validate E passes (.cond kind x y') nf (prev, m1, m2') st).map (fun r => (r.2.1, r.2.2)) ∧
    (validate E passes (.cond kind y x) nf (prev, m2, m1) st).map (fun r => r.1.2.2) =
    (validate E passes (.cond kind y x) nf (prev, m2, m1) st).map (fun _ => m1) := by
  constructor
  · simp only [validate, h]
    cases validate E passes x nf m1 st1 with
    | none => rfl
    | some r => rfl
  · simp only [validate, h]
    cases validate E passes y nf m2 st1 with
    | none => rfl
    | some r => rfl

/-! ## C50 -/

/-- The elements that a value stands for in `.byte`, `.halfword`, `.word`, `.doubleword`: an integer is one element, a string one per
byte. -/
def elements : Value → List Int
  | .int n => [n]
  | .str s => s.map fun b => (b.toNat : Int)
  | _ => []

/-- C50. In a successful run an integer data directive whose entries are integers and strings wrote, in source order, each element
modulo 2^(8 * size) in the output byte order, followed by a zero element if the directive terminates strings. Strings with
characters above 0x7F do not occur. -/
theorem data_elements {E c st0 o} (h : Succeeds E c st0 o) :
    ∃ R R' vs, Assembled E c st0 o.st R R' vs ∧ ∀ v ∈ vs, ∀ mode es t, v.cmd = .data mode es t →
      mode = .u8 ∨ mode = .u16 ∨ mode = .u32 ∨ mode = .u64 →
      ∀ vals, EvalsAll (finalParams E st0 o.st) v.before es vals → (∀ x ∈ vals, ∀ f, x ≠ .float f) →
      (∀ s, .str s ∈ vals → ∀ b ∈ s, b.toNat < 0x80) ∧
      ∃ i, ∃ pos : Nat, (pos : Int) = v.before.phys ∧ v.before.file.map (·.1) = some i ∧
        Wrote v.before v.after (st0.fm.files i).fileName pos
          ((vals.flatMap elements ++ if t then [0] else []).flatMap (intBytes v.before.endian mode.width.bytes)) := by
  obtain ⟨R, R', vs, hA, _⟩ := h.layout
  refine ⟨R, R', vs, hA, fun v hv mode es t hcmd hmode vals hvals hnf => ?_⟩
  obtain ⟨b, ws, hl, hrest⟩ := hA.lays.visit v hv
  clear hrest
  obtain ⟨cmd, before, after⟩ := v
  dsimp only at hl hcmd hvals ⊢
  subst hcmd
  cases hl with
  | @data _ _ _ _ bs _ _ h1 h2 =>
    obtain ⟨i, cur, e1, e2, e3, e4, e5⟩ := h2.wrote
    have hd : ∃ us, Entries (finalParams E st0 o.st) before (DataUnits E mode) es us ∧
        bs = (us ++ if t then [0] else []).flatMap (intBytes before.endian mode.width.bytes) := by
      rcases hmode with rfl | rfl | rfl | rfl <;> exact h1
    obtain ⟨us, hus, rfl⟩ := hd
    have key : (∀ s, .str s ∈ vals → ∀ b ∈ s, b.toNat < 0x80) ∧ us = vals.flatMap elements := by
      clear e2 e3 e4 h1 h2 hv
      induction hvals generalizing us with
      | nil => cases hus; exact ⟨nofun, rfl⟩
      | @cons e v es vals hev _ ih =>
        cases hus with
        | @cons _ _ v' x xs g1 g2 g3 =>
          obtain ⟨i1, i2⟩ := ih (fun x hx => hnf x (List.mem_cons_of_mem _ hx)) _ g3
          have := hev.unique g1
          subst this
          have hx : (∀ s, v = .str s → ∀ b ∈ s, b.toNat < 0x80) ∧ x = elements v := by
            cases v with
            | invalid => rcases hmode with rfl | rfl | rfl | rfl <;> exact absurd g2 id
            | float f => exact absurd rfl (hnf (.float f) (List.mem_cons_self ..) f)
            | int n => rcases hmode with rfl | rfl | rfl | rfl <;> exact ⟨nofun, g2⟩
            | str s =>
              have g2' : (∀ b ∈ s, b.toNat < 0x80) ∧ x = s.map fun b => (b.toNat : Int) := by
                rcases hmode with rfl | rfl | rfl | rfl <;> exact g2
              refine ⟨?_, g2'.2⟩
              intro s' hs'
              injection hs' with hs'
              subst hs'
              exact g2'.1
          refine ⟨?_, ?_⟩
          · intro s hs
            rcases List.mem_cons.mp hs with hs | hs
            · exact hx.1 s hs.symm
            · exact i1 s hs
          · rw [hx.2, i2, List.flatMap_cons]
    refine ⟨key.1, i, cur.phys, e5.symm, by rw [e1]; rfl, ?_⟩
    rw [key.2] at e2
    exact e2

/-! ## C19 -/

/-- C19. In a successful run the content of an area ends at most `size` bytes behind the start of the area; with a fill value
the rest, behind the blocks placed there automatically, was filled up to the end, and the walk went on at the end of the
area; without one, a shared area was skipped to its end. (The content may pass the end in between; see
`area_overflow_unreported`.) -/
theorem area_fits_partial {E c st0 o} (h : Succeeds E c st0 o) :
    ∃ R R' vs, Assembled E c st0 o.st R R' vs ∧ ∀ v ∈ vs, ∀ shared sizeE fill position content,
      v.cmd = .area shared sizeE fill position content →
      ∃ (p size : Int) (R1 R2 : Pos) (pre ws post : List Visit), vs = pre ++ v :: ws ++ post ∧
        R1.virt = p ∧ Evals (finalParams E st0 o.st) R1 sizeE (.int size) ∧
        (position = none → p = v.before.virt) ∧ (∀ e, position = some e → Evals (finalParams E st0 o.st) v.before e (.int p)) ∧
        Lays (finalParams E st0 o.st) true content R1 R2 ws ∧ R2.virt ≤ p + size ∧
        (fill.isSome ∨ shared → v.after.virt = p + size) ∧
        ∀ fe, fill = some fe → ∃ (f : Int) (i pos : Nat) (R3 : Pos),
          Evals (finalParams E st0 o.st) R1 fe (.int f) ∧ R2.virt ≤ R3.virt ∧ R3.out = R2.out ∧ (pos : Int) = R3.phys ∧
          R3.file.map (·.1) = some i ∧
          Wrote R3 v.after (st0.fm.files i).fileName pos (List.replicate (p + size - R3.virt).toNat (BitVec.ofInt 8 f)) ∧
          R3.virt - R2.virt = o.st.alloc.subAreaUsage ⟨(i : Int) + 1, p⟩ := by
  obtain ⟨R, R', vs, hA, _⟩ := h.layout
  refine ⟨R, R', vs, hA, fun v hv shared sizeE fill position content hcmd => ?_⟩
  obtain ⟨b, pre, ws, post, hvs, hl⟩ := hA.lays.within v hv
  obtain ⟨cmd, before, after⟩ := v
  dsimp only at hl hcmd ⊢
  subst hcmd
  cases hl with
  | @area _ _ _ _ _ _ p size f _ R1 R2 R4 _ a' ws' h1 h2 h3 h4 h5 h6 h7 h8 h9 h10 =>
    have hstart : R1.virt = p ∧ (position = none → p = before.virt) ∧
        (∀ e, position = some e → Evals (finalParams E st0 o.st) before e (.int p)) := by
      cases position with
      | none => obtain ⟨e1, e2⟩ := h1; exact ⟨by rw [e2, e1], fun _ => e1, nofun⟩
      | some e =>
        obtain ⟨R0, g1, g2, i, cur, g3, j, cur', n, g4, g5, rfl⟩ := h1
        rw [g3] at g4
        injection g4 with g4; injection g4 with _ g4; subst g4
        refine ⟨?_, nofun, ?_⟩
        · show (n : Int) + cur.header = p
          omega
        · intro e' he'; injection he' with he'; subst he'; exact g1
    have hv4 : after.virt = R4.virt := by rw [h10]; rfl
    have ho4 : after.out = R4.out := by rw [h10]
    have skipV : ∀ {Ra n Rb}, Skips Ra n Rb → Rb.virt = Ra.virt + n := by
      intro Ra n Rb hs
      obtain ⟨i, cur, k, g1, g2, rfl⟩ := hs
      unfold Pos.phys at g2
      rw [g1] at g2
      dsimp only at g2
      show (k : Int) + cur.header = _
      unfold Pos.virt
      rw [g1]
      dsimp only
      unfold Cursor.virt
      omega
    have skipF : ∀ {Ra n Rb}, Skips Ra n Rb → Rb.file.map (·.1) = Ra.file.map (·.1) := by
      intro Ra n Rb hs
      obtain ⟨i, cur, k, g1, g2, rfl⟩ := hs
      rw [g1]; rfl
    refine ⟨p, size, R1, R2, pre, ws', post, hvs, hstart.1, h2, hstart.2.1, hstart.2.2, h5, by omega, ?_, ?_⟩
    · intro hfs
      rw [hv4]
      unfold AreaRest at h7
      split at h7
      · obtain ⟨R3, g1, g2, g3⟩ := h7
        obtain ⟨i, cur, _, _, _, e4, _⟩ := Emits.wrote g3
        rw [e4, List.length_replicate]
        omega
      · have : shared = true := by simpa using hfs
        rw [if_pos this] at h7
        rw [skipV h7]
        omega
    · rintro fe rfl
      obtain ⟨R3, g1, g2, g3⟩ := h7
      obtain ⟨i, cur, e1, e2, e3, e4, e5⟩ := Emits.wrote g3
      have hsv := skipV g1
      have hsf := skipF g1
      have hu := subAreaUsage_nonneg' o.st.alloc ⟨(R2.file.elim 0 fun x => (x.1 : Int) + 1), p⟩
      have hi : R3.file.map (·.1) = some i := by rw [e1]; rfl
      have helim : (R2.file.elim 0 fun x => (x.1 : Int) + 1) = (i : Int) + 1 := by
        rw [hi] at hsf
        cases hR2 : R2.file with
        | none => rw [hR2] at hsf; exact nomatch hsf
        | some x => rw [hR2] at hsf; injection hsf with hsf; rw [hsf]; rfl
      refine ⟨f, i, cur.phys, R3, h4, ?_, g1.out, e5.symm, hi, ?_, ?_⟩
      · rw [hsv]
        show R2.virt ≤ R2.virt + o.st.alloc.subAreaUsage ⟨(R2.file.elim 0 fun x => (x.1 : Int) + 1), p⟩
        omega
      · unfold Wrote at e2 ⊢
        rw [ho4]; exact e2
      · rw [hsv, helim]
        show R2.virt + o.st.alloc.subAreaUsage ⟨(i : Int) + 1, p⟩ - R2.virt = _
        omega

/-- C19, finding. The overflow test compares only the end of the content: an area of 4 bytes into which 8 bytes are written is accepted if
its content then moves back. -/
theorem area_overflow_unreported :
    Sample.result [.openFile 0,
      .area false (.int 4) none none
        (Sample.seq [.data .u64 [.int 0x0807060504030201] false, .position true (.int 0x8000002)]),
      .closeFile] = some (true, 2, some [1, 2, 3, 4, 5, 6, 7, 8]) := by decide +kernel

/-! ## C20 -/

/-- C20. In a successful run every request to the literal pool was served: some pool command wrote a word with the requested value, and the
instruction was encoded with the address of this word. -/
theorem pool_request_served {E c st0 o} (h : Succeeds E c st0 o) :
    ∃ R R' vs, Assembled E c st0 o.st R R' vs ∧ ∀ v ∈ vs, ∀ e, Requests (finalParams E st0 o.st) v e →
      ∃ w ∈ vs, w.cmd = .pool ∧ ∃ (values : List Int) (k i pos : Nat),
        values[k]? = some e.value ∧ o.st.poolAddr e.request = some (w.before.virt + 4 * k) ∧
        NoErrors (e.diags (w.before.virt + 4 * k)) ∧
        (pos : Int) = w.before.phys ∧ w.before.file.map (·.1) = some i ∧
        Wrote w.before w.after (st0.fm.files i).fileName pos (values.flatMap (intBytes w.before.endian 4)) := by
  obtain ⟨R, R', vs, hA, _⟩ := h.layout
  refine ⟨R, R', vs, hA, fun v hv e he => ?_⟩
  rcases hA.lays.servedBy e (.inr ⟨v, hv, he⟩) with hs | ⟨w, hw, hwc, hs⟩
  · rw [hA.served] at hs; exact absurd hs List.not_mem_nil
  · refine ⟨w, hw, hwc, ?_⟩
    obtain ⟨b, ws, hl, hrest⟩ := hA.lays.visit w hw
    clear hrest
    obtain ⟨cmd, before, after⟩ := w
    dsimp only at hl hwc hs ⊢
    subst hwc
    cases hl with
    | @pool _ values pools _ R1 _ h1 h2 h3 =>
      obtain ⟨k, g1, g2, g3⟩ := h1.1 e hs
      obtain ⟨i, cur, e1, e2, e3, e4, e5⟩ := Emits.wrote h2
      refine ⟨values, k, i, cur.phys, g1, g2, g3, e5.symm, ?_, ?_⟩
      · have : before.file = some (i, cur) := e1
        rw [this]; rfl
      · unfold Wrote at e2 ⊢
        rw [h3]
        exact e2

private theorem poolPush_nodup {v : Int} {l : List Int} (h : l.Nodup) : (poolPush true v l).Nodup := by
  unfold poolPush poolIndex
  rw [if_pos rfl]
  have key : ∀ l : List Int, firstIndex v l = none → v ∉ l := by
    intro l
    induction l with
    | nil => intro _; exact List.not_mem_nil
    | cons x xs ih =>
      intro hx
      unfold firstIndex at hx
      split at hx
      · exact nomatch hx
      · rename_i hne
        cases hf : firstIndex v xs with
        | none =>
          intro hm
          rcases List.mem_cons.mp hm with hm | hm
          · exact hne hm.symm
          · exact ih hf hm
        | some k => rw [hf] at hx; exact nomatch hx
  cases hf : firstIndex v l with
  | none =>
    dsimp only
    rw [if_pos rfl]
    rw [List.nodup_append]
    refine ⟨h, by simp, ?_⟩
    intro x hx y hy hxy
    rw [List.mem_singleton] at hy
    subst hxy hy
    exact key l hf hx
  | some k =>
    dsimp only
    have := (List.getElem?_eq_some_iff.mp (firstIndex_get hf)).1
    rw [if_neg (by omega)]
    exact h

/-- C20. In any pass, from any state whose requests are numbered differently: after a pool command each pending request has the address of a
slot holding its value; slots are four bytes apart from the address of the pool on; every slot serves a request; up to the tenth
pass no two slots hold the same value, from then on there is one slot per request, in order. -/
theorem pool_slots (passes : Nat) (old : Int × List Int) (st : St) (hn : (st.pool.map PoolEntry.request).Nodup) :
    let r := validatePool passes old st
    r.1.1 = st.virt ∧ r.2.1.pool = [] ∧
    (∀ e ∈ st.pool, ∃ k : Nat, r.1.2[k]? = some e.value ∧ r.2.1.poolAddr e.request = some (r.1.1 + 4 * k)) ∧
    (∀ x ∈ r.1.2, ∃ e ∈ st.pool, e.value = x) ∧
    (passes < 10 → r.1.2.Nodup) ∧ (10 ≤ passes → r.1.2 = st.pool.map PoolEntry.value) := by
  unfold validatePool
  dsimp only
  generalize hs : (if old.1 ≠ -1 then
    ({ st with fm := st.fm.getOpenFileID.1, alloc := st.alloc.forgetPool st.fm.getOpenFileID.2 old.1 (old.2.length * 4) } : St)
    else { st with fm := st.fm.getOpenFileID.1 }) = st1
  have hv : st1.virt = st.virt := by
    have : st1.fm = st.fm.getOpenFileID.1 := by rw [← hs]; split <;> rfl
    unfold St.virt FM.getVirtualAddress
    rw [this]
    unfold FM.getOpenFileID
    cases ha : st.fm.active with
    | none => simp [FM.queueError, ha]
    | some i => simp [ha]
  have hp : st1.pool = st.pool := by rw [← hs]; split <;> rfl
  have run := poolRun (decide (passes < 10)) st1.virt st1.pool ([], st1)
  have hnd : passes < 10 → ∀ (es : List PoolEntry) (acc : List Int × St), acc.1.Nodup →
      (es.foldl (poolStep (decide (passes < 10)) st1.virt) acc).1.Nodup := by
    intro hlt es
    induction es with
    | nil => intro acc h; exact h
    | cons e es ih =>
      intro acc h
      refine ih _ ?_
      show (poolPush (decide (passes < 10)) e.value acc.1).Nodup
      rw [decide_eq_true hlt]
      exact poolPush_nodup h
  have hall : 10 ≤ passes → ∀ (es : List PoolEntry) (acc : List Int × St),
      (es.foldl (poolStep (decide (passes < 10)) st1.virt) acc).1 = acc.1 ++ es.map PoolEntry.value := by
    intro hge es
    induction es with
    | nil => intro acc; simp
    | cons e es ih =>
      intro acc
      rw [List.foldl_cons, ih]
      show poolPush (decide (passes < 10)) e.value acc.1 ++ _ = _
      rw [decide_eq_false (by omega)]
      simp [poolPush, poolIndex]
  have n1 := fun h => hnd h st1.pool ([], st1) List.nodup_nil
  have n2 := fun h => hall h st1.pool ([], st1)
  generalize st1.pool.foldl (poolStep (decide (passes < 10)) st1.virt) ([], st1) = acc at run n1 n2
  obtain ⟨e1, _, e3⟩ := (St.le_advance ({ acc.2 with pool := [] } : St) (acc.1.length * 4)).same
  refine ⟨hv, e1, ?_, ?_, n1, ?_⟩
  · intro e he
    obtain ⟨k, g1, g2, _⟩ := run.slot (by rw [hp]; exact hn) e (by rw [hp]; exact he)
    exact ⟨k, g1, by rw [show _ = _ from congrFun e3 e.request]; exact g2⟩
  · intro x hx
    rcases run.mem x hx with h | ⟨e, he, h⟩
    · exact absurd h List.not_mem_nil
    · exact ⟨e, hp ▸ he, h⟩
  · intro h
    have := n2 h
    rw [hp] at this
    exact this

/-! ## Examples: the hypotheses are met -/

/-- A run that ends with success meets `Succeeds`. -/
theorem sample_succeeds {cs n out} (h : Sample.result cs = some (true, n, some out)) :
    ∃ o, Succeeds Sample.env (Sample.seq cs) Sample.start o ∧ o.passes = n ∧ o.st.fm.disk "out" = some out := by
  unfold Sample.result at h
  split at h
  · rename_i o ho
    injection h with h
    injection h with h1 h2
    injection h2 with h2 h3
    exact ⟨o, ⟨⟨rfl, rfl⟩, ⟨101, ho⟩, h1⟩, h2, h3⟩
  · exact nomatch h

/-- A forward reference, labels, an alignment with a fill value, strings with termination. -/
example : ∃ o, Succeeds Sample.env (Sample.seq Sample.forward) Sample.start o ∧ o.passes = 3 ∧
    o.st.fm.disk "out" = some [7, 8, 0, 0, 8, 255, 255, 255, 1, 0, 120, 0, 0, 0] :=
  sample_succeeds (by decide +kernel)

/-- Areas with a fill value, `.fill`, `.skip`, `.incbin`, conditionals, big endian. -/
example : ∃ o, Succeeds Sample.env (Sample.seq [.arch .mips .big, .openFile 0,
      .area false (.int 6) (some (.int 0xEE)) none (.data .u16 [.int (-2), .int 0x12345] false),
      .align .fill (.int 2) (some (.int 0x1FF)), .skip (.int 1), .incbin "in" 4 (some (.int 1)) (some (.int 9)),
      .cond (.if_ Sample.a) (.data .u8 [.int 1] false) (.data .u8 [.int 2] false), .label 0 none, .closeFile]) Sample.start o ∧
    o.passes = 3 ∧ o.st.fm.disk "out" = some [0xFF, 0xFE, 0x23, 0x45, 0xEE, 0xEE, 0xFF, 0xFF, 0, 2, 3, 4, 1] :=
  sample_succeeds (by decide +kernel)

/-- An instruction that asks the literal pool for a word and is encoded as the address of the word. -/
def poolInstr (v : Int) : InstrSem where
  run _ as := .ok (⟨4, some v, fun _ => [], fun a => [(.w32, a.getD 0)], fun _ => rfl⟩, as) []
  changed old _ := old.isNone

example : ∃ o, Succeeds Sample.env (Sample.seq [.openFile 0, .instr (poolInstr 5), .instr (poolInstr 6), .instr (poolInstr 5), .pool,
      .closeFile]) Sample.start o ∧
    o.passes = 2 ∧ o.st.fm.disk "out" = some [12, 0, 0, 8, 16, 0, 0, 8, 12, 0, 0, 8, 5, 0, 0, 0, 6, 0, 0, 0] :=
  sample_succeeds (by decide +kernel)

/-- The loop can run into its limit: the block is taken exactly in the passes in which it was not taken before. -/
example : Sample.result [.openFile 0, .cond (.if_ (.bin .equal Sample.a (.int 0x8000000))) (.data .u8 [.int 1] false) .nil, .label 0 none,
    .closeFile] = some (false, 100, none) := by decide +kernel

/-! ## Findings at the level of whole programs -/

/-- C18, finding. An area that moves in the last pass does not cause another one: the block placed in its old space stays there. The byte
lies at address 0x8000000, the only region is 0x8000100 to 0x8000110. -/
theorem autoregion_stale : ∃ o,
    Succeeds Sample.env (Sample.seq [.openFile 0, .autoRegion none none (.data .u8 [.int 1] false),
      .area true (.int 16) none (some Sample.b) .nil,
      .position true (Sample.ref 'c'), .label 1 none, .position true (Sample.ref 'd'), .label 2 none,
      .position true (Sample.ref 'e'), .label 3 none, .position true (Sample.ref 'f'), .label 4 none,
      .position true (.int 0x8000100), .label 5 none, .closeFile]) Sample.start o ∧
    o.passes = 6 ∧ o.st.fm.disk "out" = some [1] :=
  sample_succeeds (by decide +kernel)

/-- C02, finding. A label whose definition was executed only in an earlier pass stays defined with the old value: here `.ifndef b`
selects the definition of `a` in the first pass only. -/
theorem label_of_earlier_pass : ∃ o,
    Succeeds Sample.env (Sample.seq [.openFile 0, .cond (.ifndef 1) (.label 0 none) .nil, .data .u8 [.int 1] false, .label 1 none,
      .data .u32 [Sample.a] false, .closeFile]) Sample.start o ∧
    o.passes = 3 ∧ o.st.fm.disk "out" = some [1, 0, 0, 0, 8] :=
  sample_succeeds (by decide +kernel)

/-- C05, finding. From a negative address `.align` skips a boundary: at address -3, `.align 4` writes 7 bytes. -/
theorem align_negative : ∃ o,
    Succeeds Sample.env (Sample.seq [.openFile 0, .headerSize (.int (-3)), .align .virtual (.int 4) none, .closeFile]) Sample.start o ∧
    o.passes = 2 ∧ o.st.fm.disk "out" = some [0, 0, 0, 0, 0, 0, 0] :=
  sample_succeeds (by decide +kernel)

/-- C06, finding. A negative `.fill` is accepted; encoding it is undefined behaviour (`memset` with a negative size). -/
theorem negative_fill_ub :
    assemble Sample.env (Sample.seq [.openFile 0, .data .u64 [.int 1] false, .align .fill (.int (-3)) none, .closeFile]) 101
      Sample.start = .ub := by
  with_unfolding_all rfl

/-- C04, finding. A `.definelabel` whose expression refers to a later label fails for good, although the next pass would know the value: the
error is printed at once, not queued. -/
theorem definelabel_forward_fails :
    Sample.result [.openFile 0, .label 0 (some Sample.b), .label 1 none, .closeFile] = some (false, 3, none) := by
  decide +kernel

end Armips.Props
