import Verif.Lemmas.ElfFile
/-! # Helper lemmas: the saved ELF file -/
namespace Armips.ElfFile
open Armips.Elf (getWord putWord)

theorem Laid.disjoint {out tr} (h : Laid out tr) {a b : Piece} (ha : a ∈ tr) (hb : b ∈ tr) (hne : a.part ≠ b.part) :
    a.pos + a.bs.length ≤ b.pos ∨ b.pos + b.bs.length ≤ a.pos := by
  have := h.apart
  clear h
  induction tr with
  | nil => cases ha
  | cons x tr ih =>
    rw [List.pairwise_cons] at this
    rcases List.mem_cons.1 ha with rfl | ha
    · rcases List.mem_cons.1 hb with rfl | hb
      · exact absurd rfl hne
      · exact .inl (this.1 b hb)
    · rcases List.mem_cons.1 hb with rfl | hb
      · rename_i ha0; exact .inr (this.1 a ha0)
      · exact ih ha hb this.2

/-- What saving does. -/
structure Saved (f f' : File) (d : List Byte) : Prop where
  len : 52 ≤ d.length
  head : slice d 0 52 = f'.hdr.bytes (endian f'.hdr)
  hdr : f'.hdr = { f.hdr with phoff := f'.hdr.phoff, shoff := f'.hdr.shoff }
  phfits : f'.hdr.phoff.toNat + f.segs.length * f.hdr.phentsize.toNat ≤ d.length
  shfits : f'.hdr.shoff.toNat + f.nsecs * f.hdr.shentsize.toNat ≤ d.length
  nsegs : f'.segs.length = f.segs.length
  seg : ∀ i g, f.segs[i]? = some g → ∃ g', f'.segs[i]? = some g' ∧ SameP g.hdr g'.hdr ∧ g'.sections = g.sections ∧
    slice d (f'.hdr.phoff.toNat + i * f.hdr.phentsize.toNat) 32 = wordBytes (endian f.hdr) g'.hdr.words ∧
    (g.sections ≠ [] → g'.hdr.offset.toNat + g.data.length ≤ d.length ∧ slice d g'.hdr.offset.toNat g.data.length = g.data) ∧
    ∀ j ∈ g.sections, f'.secs j = addBase g'.hdr.offset (f.secs j)
  sec : ∀ j < f.nsecs, slice d (f'.hdr.shoff.toNat + j * f.hdr.shentsize.toNat) 40 = wordBytes (endian f.hdr) (f'.secs j).hdr.words
  less : ∀ j ∈ f.less, (SameS (f.secs j).hdr (f'.secs j).hdr ∧ ((f.secs j).hdr.type = 0#32 → f'.secs j = f.secs j)) ∧ ((f.secs j).hdr.type ≠ 0#32 →
    (f'.secs j).hdr.offset.toNat + (f.secs j).data.length ≤ d.length ∧
    slice d (f'.secs j).hdr.offset.toNat (f.secs j).data.length = (f.secs j).data ∧
    ((f.secs j).hdr.align ≠ -1#32 → (f.secs j).hdr.align.toNat ≠ 0 →
      (f'.secs j).hdr.offset.toNat % (f.secs j).hdr.align.toNat = 0))

theorem ofNat32 {n m : Nat} (h : n ≤ m) (hm : m < 2 ^ 32) : (BitVec.ofNat 32 n).toNat = n := by
  rw [BitVec.toNat_ofNat]; omega

theorem save_spec {f : File} (hs : f.Split) (hnd : f.order.Nodup) (hall : ∀ p, p ∈ f.order) (hid : f.hdr.ident.length = 16)
    (hpe : f.segs = [] ∨ 32 ≤ f.hdr.phentsize.toNat) (hse : f.nsecs = 0 ∨ 40 ≤ f.hdr.shentsize.toNat)
    (hlen : (save f).1.length < 2 ^ 32) : Saved f (save f).2 (save f).1 := by
  have h0 : Laid (List.replicate 52 0#8) [] := ⟨by simp, by simp, by simp⟩
  obtain ⟨cs, hL, hM, _⟩ := writeParts_spec f.order (f := f) hnd h0 hs
  rw [List.nil_append] at hL
  unfold save at hlen ⊢
  simp only at hlen ⊢
  generalize (List.foldl writePart (List.replicate 52 0#8, f) f.order) = x at hL hM hlen ⊢
  obtain ⟨d0, f'⟩ := x
  simp only at hL hM hlen ⊢
  have hhdr := hM.hdr
  have hend : endian f'.hdr = endian f.hdr := by rw [hhdr]; rfl
  have hid' : f'.hdr.ident.length = 16 := by rw [hhdr]; exact hid
  have hpe' : f'.hdr.phentsize = f.hdr.phentsize := by rw [hhdr]
  have hse' : f'.hdr.shentsize = f.hdr.shentsize := by rw [hhdr]
  obtain ⟨hPS, hPA⟩ := hM.segs (hall _)
  have hsegl := hPS.1
  obtain ⟨cp, p1, p2, p3, p4⟩ := hM.ph (hall _)
  obtain ⟨cq, q1, q2, q3, q4⟩ := hM.sh (hall _)
  have pl := hL.lies cp p1
  have ql := hL.lies cq q1
  have plen : cp.bs.length = f.segs.length * f.hdr.phentsize.toNat := by rw [p4, List.length_replicate]
  have qlen : cq.bs.length = f.nsecs * f.hdr.shentsize.toNat := by rw [q4, List.length_replicate]
  -- the header
  have e1 := writeEhdr_patch (e := endian f'.hdr) hid' hL.start
  have hbl : (f'.hdr.bytes (endian f'.hdr)).length = 52 := Ehdr.bytes_length hid'
  have l1 : (writeEhdr (endian f'.hdr) d0 f'.hdr).length = d0.length := by
    rw [e1]; exact patch_length (by have := hL.start; omega)
  have d1o : ∀ q n, 52 ≤ q → slice (writeEhdr (endian f'.hdr) d0 f'.hdr) q n = slice d0 q n := by
    intro q n hq
    rw [e1]; exact slice_patch_other (by have := hL.start; omega) (by omega)
  have d1s : slice (writeEhdr (endian f'.hdr) d0 f'.hdr) 0 52 = f'.hdr.bytes (endian f'.hdr) := by
    rw [e1]
    have := slice_patch_self (d := d0) (p := 0) (bs := f'.hdr.bytes (endian f'.hdr)) (by have := hL.start; omega)
    rw [hbl] at this
    exact this
  generalize writeEhdr (endian f'.hdr) d0 f'.hdr = d1 at hlen l1 d1o d1s ⊢
  -- the tables
  have hpos : ∀ c ∈ cs, 52 ≤ c.pos := fun c hc => (hL.lies c hc).1
  have hbound : ∀ c ∈ cs, c.pos + c.bs.length ≤ d0.length := fun c hc => (hL.lies c hc).2.1
  have hlen0 : d0.length < 2 ^ 32 → f'.hdr.phoff.toNat = cp.pos ∧ f'.hdr.shoff.toNat = cq.pos := by
    intro hlt
    refine ⟨by rw [p3]; exact ofNat32 (m := d0.length) (by have := hbound cp p1; omega) hlt, ?_⟩
    rw [q3]; exact ofNat32 (m := d0.length) (by have := hbound cq q1; omega) hlt
  have hlow : f'.hdr.phoff.toNat ≤ cp.pos ∧ f'.hdr.shoff.toNat ≤ cq.pos := by
    rw [p3, q3, BitVec.toNat_ofNat, BitVec.toNat_ofNat]
    exact ⟨Nat.mod_le _ _, Nat.mod_le _ _⟩
  have t1 := writePhdrs_spec (e := endian f'.hdr) (h := f'.hdr) f'.segs 0 (d := d1)
    (hpe.imp (fun h => List.eq_nil_of_length_eq_zero (by rw [hsegl, h]; rfl)) (fun h => by rw [hpe']; exact h))
    (by have := hbound cp p1; rw [plen] at this; rw [hsegl, hpe', l1, Nat.zero_add]; omega)
  generalize writePhdrs (endian f'.hdr) f'.hdr d1 0 f'.segs = d2 at t1 hlen ⊢
  obtain ⟨l2, d2o, d2s⟩ := t1
  have t2 := writeShdrs_spec (e := endian f'.hdr) (h := f'.hdr) (secs := f'.secs) (d := d2) f'.nsecs
    (by rw [hM.nsecs, hse']; exact hse)
    (by have := hbound cq q1; rw [qlen] at this; rw [hM.nsecs, hse', l2, l1]; omega)
  generalize writeShdrs (endian f'.hdr) f'.hdr f'.secs d2 f'.nsecs = d3 at t2 hlen ⊢
  obtain ⟨l3, d3o, d3s⟩ := t2
  have hlen0 := hlen0 (by omega)
  obtain ⟨hph, hsh⟩ := hlen0
  rw [hsegl, hpe', hph] at d2o
  rw [hM.nsecs, hse', hsh] at d3o
  rw [hpe', hph] at d2s
  rw [hM.nsecs, hse', hsh] at d3s
  simp only [Nat.zero_add, Nat.zero_mul, Nat.add_zero] at d2o d2s
  -- contents stay
  have keep : ∀ c ∈ cs, c.part ≠ .segmentTable → c.part ≠ .sectionTable → slice d3 c.pos c.bs.length = c.bs := by
    intro c hc h1 h2
    have a := hL.disjoint hc p1 (by rw [p2]; exact h1)
    have b := hL.disjoint hc q1 (by rw [q2]; exact h2)
    rw [plen] at a
    rw [qlen] at b
    rw [d3o _ _ b, d2o _ _ a, d1o _ _ (hpos c hc)]
    exact (hL.lies c hc).2.2
  have hpq := hL.disjoint p1 q1 (by rw [p2, q2]; intro h; cases h)
  rw [plen, qlen] at hpq
  have hbp := hbound cp p1
  have hbq := hbound cq q1
  rw [plen] at hbp
  rw [qlen] at hbq
  have hpp := hpos cp p1
  have hpq' := hpos cq q1
  exact {
    len := by have := hL.start; omega
    head := by
      rw [d3o 0 52 (.inl (by omega)), d2o 0 52 (.inl (by omega)), d1s]
    hdr := hhdr
    phfits := by rw [hph]; omega
    shfits := by rw [hsh]; omega
    nsegs := hsegl
    seg := by
      intro i g hg
      obtain ⟨g', c, k1, k2, k3⟩ := hPS.2 i g hg
      obtain ⟨m1, m2, m3, m4, m5, m6⟩ := k3
      have hoff : g'.hdr.offset.toNat = c.pos := by
        rw [m5]; exact ofNat32 (m := d0.length) (by have := hbound c k2; omega) (by omega)
      refine ⟨g', k1, m1, m3, ?_, ?_, ?_⟩
      · rw [hph, ← hend]
        have hi : i < f.segs.length := (List.getElem?_eq_some_iff.1 hg).1
        have hent : 32 ≤ f.hdr.phentsize.toNat := hpe.resolve_left (by intro h; rw [h] at hi; simp at hi)
        have hmul : (i + 1) * f.hdr.phentsize.toNat ≤ f.segs.length * f.hdr.phentsize.toNat := Nat.mul_le_mul_right _ hi
        rw [Nat.add_mul, Nat.one_mul] at hmul
        rw [d3o _ _ (by omega)]
        exact d2s i g' k1
      · intro hne
        have := keep c k2 (by rw [m4]; intro h; cases h) (by rw [m4]; intro h; cases h)
        rw [m6 hne] at this
        have hb := hbound c k2
        rw [m6 hne] at hb
        rw [hoff]
        exact ⟨by omega, this⟩
      · intro j hj
        exact hPA g' (List.mem_of_getElem? k1) j (by rw [m3]; exact hj)
    sec := by
      intro j hj
      rw [hsh, ← hend]
      exact d3s j hj
    less := by
      intro j hj
      obtain ⟨k1, k2, k3⟩ := hM.secs (hall _) j hj
      refine ⟨⟨k1, k2.2⟩, fun hn => ?_⟩
      obtain ⟨c, m1, m2, m3, m4, m5⟩ := k3 hn
      have hb := hbound c m1
      have hoff : (f'.secs j).hdr.offset.toNat = c.pos := by
        rw [m3]; exact ofNat32 (m := d0.length) (by omega) (by omega)
      have := keep c m1 (by rw [m2]; intro h; cases h) (by rw [m2]; intro h; cases h)
      rw [m4] at this hb
      rw [hoff]
      exact ⟨by omega, this, m5⟩ }

end Armips.ElfFile
