import Verif.Spec.Elf
/-! Words in byte lists, and the actions of relocations. -/
namespace Armips.Elf
open Spec.Elf

theorem putWord_length (e : Endianness) (d : List Byte) (p : Int) (w : BitVec 32) : (putWord e d p w).length = d.length := by
  unfold putWord
  split
  · simp; omega
  · rfl

theorem get_put_same (e : Endianness) (d : List Byte) (p : Nat) (w : BitVec 32) (h : p + 4 ≤ d.length) :
    getWord e (putWord e d p w) p = w := by
  unfold getWord
  rw [putWord_length, if_pos h]
  unfold putWord
  rw [if_pos (by omega)]
  have : ((d.take (p : Int).toNat ++ toBytes e 4 w.toNat ++ d.drop ((p : Int).toNat + 4)).drop p).take 4 = toBytes e 4 w.toNat := by
    rw [List.append_assoc, List.drop_append_of_le_length (by simp; omega)]
    simp only [Int.toNat_natCast]
    rw [List.drop_take, Nat.sub_self, List.take_zero, List.nil_append]
    rw [List.take_append_of_le_length (by simp)]
    rw [List.take_of_length_le (by simp)]
  rw [this, fromBytes_toBytes]
  apply BitVec.eq_of_toNat_eq
  rw [BitVec.toNat_ofNat]
  have := w.isLt
  omega

theorem put_get? (e : Endianness) (d : List Byte) (q : Int) (w : BitVec 32) (i : Nat) (h : (i : Int) < q ∨ q + 4 ≤ i) :
    (putWord e d q w)[i]? = d[i]? := by
  unfold putWord
  split
  · rename_i hq
    by_cases h1 : (i : Int) < q
    · rw [List.append_assoc, List.getElem?_append_left (by simp; omega), List.getElem?_take_of_lt (by omega)]
    · rw [List.getElem?_append_right (by simp; omega)]
      simp only [List.length_append, List.length_take, toBytes_length, List.getElem?_drop]
      congr 1
      omega
  · rfl

theorem get_congr (e : Endianness) (d d' : List Byte) (p : Nat) (hl : d.length = d'.length)
    (h : ∀ i, p ≤ i → i < p + 4 → d[i]? = d'[i]?) : getWord e d p = getWord e d' p := by
  unfold getWord
  rw [hl]
  have : (d.drop p).take 4 = (d'.drop p).take 4 := by
    apply List.ext_getElem?
    intro i
    rw [List.getElem?_take, List.getElem?_take]
    split
    · rw [List.getElem?_drop, List.getElem?_drop, h _ (by omega) (by omega)]
    · rfl
  rw [this]

theorem get_put_other (e : Endianness) (d : List Byte) (p : Nat) (q : Int) (w : BitVec 32) (h : (p : Int) + 4 ≤ q ∨ q + 4 ≤ p) :
    getWord e (putWord e d q w) p = getWord e d p :=
  get_congr _ _ _ _ (putWord_length ..) fun i _ _ => put_get? e d q w i (by omega)

/-- Performing actions. -/
def perform (e : Endianness) (b : Int) (as : List Action) (d : List Byte) : List Byte :=
  as.foldl (fun d a => putWord e d (a.offset - b) a.value) d

theorem perform_length (e : Endianness) (b : Int) (as : List Action) (d : List Byte) : (perform e b as d).length = d.length := by
  induction as generalizing d with
  | nil => rfl
  | cons a as ih => rw [perform, List.foldl_cons, ← perform, ih, putWord_length]

theorem perform_other (e : Endianness) (b : Int) (as : List Action) (d : List Byte) (p : Nat)
    (h : ∀ a ∈ as, (p : Int) + b + 4 ≤ a.offset ∨ a.offset + 4 ≤ p + b) : getWord e (perform e b as d) p = getWord e d p := by
  induction as generalizing d with
  | nil => rfl
  | cons a as ih =>
    rw [perform, List.foldl_cons, ← perform, ih _ fun x hx => h x (List.mem_cons_of_mem _ hx)]
    exact get_put_other _ _ _ _ _ (by have := h a (List.mem_cons_self ..); omega)

theorem perform_get? (e : Endianness) (b : Int) (as : List Action) (d : List Byte) (i : Nat)
    (h : ∀ a ∈ as, (i : Int) + b < a.offset ∨ a.offset + 4 ≤ i + b) : (perform e b as d)[i]? = d[i]? := by
  induction as generalizing d with
  | nil => rfl
  | cons a as ih =>
    refine (ih _ fun x hx => h x (List.mem_cons_of_mem _ hx)).trans ?_
    exact put_get? _ _ _ _ _ (by have := h a (List.mem_cons_self ..); omega)

theorem perform_append (e : Endianness) (b : Int) (as bs : List Action) (d : List Byte) :
    perform e b (as ++ bs) d = perform e b bs (perform e b as d) := by
  unfold perform; rw [List.foldl_append]

/-- The last action on a word decides. -/
theorem perform_last (e : Endianness) (b : Int) (as bs : List Action) (d : List Byte) (p : Nat) (w : BitVec 32) (hp : p + 4 ≤ d.length)
    (h : ∀ a ∈ bs, (p : Int) + b + 4 ≤ a.offset ∨ a.offset + 4 ≤ p + b) :
    getWord e (perform e b (as ++ ⟨p + b, w⟩ :: bs) d) p = w := by
  rw [perform_append, show (⟨(p : Int) + b, w⟩ :: bs : List Action) = [⟨p + b, w⟩] ++ bs from rfl, perform_append, perform_other _ _ _ _ _ h]
  simp only [perform, List.foldl_cons, List.foldl_nil]
  rw [show (p : Int) + b - b = (p : Int) by omega]
  apply get_put_same
  rw [← perform, perform_length]
  exact hp

theorem relocSection_eq {M : Machine} {f : File} {ext : String → Option Ext} {m : List (Nat × Int)} {s : Section} {q : M.State}
    {d : List Byte} {o : Outcome M.State} (h : relocSection M f ext m s q = some (d, o)) :
    ∃ o1 x, relocLoop M f ext m s q s.rels = some o1 ∧ M.finish o1.state = some x ∧
      d = perform f.endian (offsetOf m s.index) (o1.actions ++ x.actions) s.data ∧
      o = ⟨o1.ok && x.ok, x.state, o1.actions ++ x.actions, o1.errors ++ (if x.ok then [] else x.errors), o1.warnings⟩ := by
  unfold relocSection at h
  simp only [bind, Option.bind_eq_some_iff, Option.some.injEq, Prod.mk.injEq] at h
  obtain ⟨o1, h1, x, h2, h3, h4⟩ := h
  exact ⟨o1, x, h1, h2, h3.symm, h4.symm⟩

theorem relocSection_length {M : Machine} {f : File} {ext : String → Option Ext} {m : List (Nat × Int)} {s : Section} {q : M.State}
    {d : List Byte} {o : Outcome M.State} (h : relocSection M f ext m s q = some (d, o)) : d.length = s.data.length := by
  obtain ⟨_, _, _, _, rfl, _⟩ := relocSection_eq h
  exact perform_length ..

/-- Going through the relocations in two parts. -/
theorem relocLoop_append {M : Machine} {f : File} {ext : String → Option Ext} {m : List (Nat × Int)} {s : Section} {l l' : List Rel} :
    ∀ {q : M.State} {o : Outcome M.State}, relocLoop M f ext m s q (l ++ l') = some o →
    ∃ o1 o2, relocLoop M f ext m s q l = some o1 ∧ relocLoop M f ext m s o1.state l' = some o2 ∧
      o = ⟨o1.ok && o2.ok, o2.state, o1.actions ++ o2.actions, o1.errors ++ o2.errors, o1.warnings ++ o2.warnings⟩ := by
  induction l with
  | nil =>
    intro q o h
    exact ⟨_, o, rfl, h, by cases o; simp⟩
  | cons r l ih =>
    intro q o h
    rw [List.cons_append, relocLoop] at h
    rw [relocLoop]
    split at h
    · rename_i hd
      obtain ⟨o1, o2, h1, h2, h3⟩ := ih h
      exact ⟨o1, o2, by simp [hd, h1], h2, h3⟩
    · rename_i hd
      simp only [hd]
      split at h
      · rename_i e t he
        simp only [bind, Option.bind_eq_some_iff, Option.some.injEq] at h
        obtain ⟨o', h', rfl⟩ := h
        obtain ⟨o1, o2, h1, h2, rfl⟩ := ih h'
        refine ⟨{ o1 with ok := false, errors := if e then t :: o1.errors else o1.errors, warnings := if e then o1.warnings else t :: o1.warnings },
          o2, by simp [he, h1], h2, ?_⟩
        cases e <;> simp
      · rename_i d he
        simp only [bind, Option.bind_eq_some_iff, Option.some.injEq] at h
        obtain ⟨x, hx, o', h', rfl⟩ := h
        obtain ⟨o1, o2, h1, h2, rfl⟩ := ih h'
        refine ⟨{ o1 with ok := x.ok && o1.ok, actions := x.actions ++ o1.actions, errors := (if x.ok then [] else x.errors) ++ o1.errors },
          o2, by simp [he, hx, h1], h2, ?_⟩
        simp [Bool.and_assoc]

/-- A relocation that is carried out. -/
theorem relocLoop_cons {M : Machine} {f : File} {ext : String → Option Ext} {m : List (Nat × Int)} {s : Section} {r : Rel} {l : List Rel}
    {q : M.State} {o : Outcome M.State} {d : RelocData} (hd : M.dummy r.type = false) (he : relocData M f ext m s r = .ok d)
    (h : relocLoop M f ext m s q (r :: l) = some o) :
    ∃ x o2, M.step r.type d q = some x ∧ relocLoop M f ext m s x.state l = some o2 ∧
      o = ⟨x.ok && o2.ok, o2.state, x.actions ++ o2.actions, (if x.ok then [] else x.errors) ++ o2.errors, o2.warnings⟩ := by
  rw [relocLoop] at h
  simp only [hd, Bool.false_eq_true, if_false, he, bind, Option.bind_eq_some_iff, Option.some.injEq] at h
  obtain ⟨x, hx, o', h', rfl⟩ := h
  exact ⟨x, o', hx, h', rfl⟩

/-- A relocation that is not carried out. -/
theorem relocLoop_error {M : Machine} {f : File} {ext : String → Option Ext} {m : List (Nat × Int)} {s : Section} {r : Rel} {l : List Rel}
    {q : M.State} {o : Outcome M.State} {e : Bool × String} (hd : M.dummy r.type = false) (he : relocData M f ext m s r = .error e)
    (h : relocLoop M f ext m s q (r :: l) = some o) :
    ∃ o2, relocLoop M f ext m s q l = some o2 ∧ o.ok = false ∧ o.state = o2.state ∧ o.actions = o2.actions := by
  rw [relocLoop] at h
  obtain ⟨e, t⟩ := e
  simp only [hd, Bool.false_eq_true, if_false, he, bind, Option.bind_eq_some_iff, Option.some.injEq] at h
  obtain ⟨o', h', rfl⟩ := h
  exact ⟨o', h', rfl, rfl, rfl⟩

theorem relocData_offset {M : Machine} {f : File} {ext : String → Option Ext} {m : List (Nat × Int)} {s : Section} {r : Rel} {d : RelocData}
    (h : relocData M f ext m s r = .ok d) : d.offset = r.offset + offsetOf m s.index ∧ d.opcode = getWord f.endian s.data r.offset := by
  unfold relocData at h
  simp only at h
  repeat' split at h
  all_goals first | (cases h; exact ⟨rfl, rfl⟩) | cases h

end Armips.Elf
