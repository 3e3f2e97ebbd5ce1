import Verif.Model.EncodingTable
/-! Trie invariant and its refinement to a partial map. -/
namespace Armips.Table
open Armips

namespace Trie

/-- Follow edges from the root. -/
def walk (t : Trie) : Nat → List Byte → Option Nat
  | n, [] => some n
  | n, c :: cs => (t.next n c).bind fun m => walk t m cs

theorem walk_append (t : Trie) (n : Nat) (a b : List Byte) :
    t.walk n (a ++ b) = (t.walk n a).bind fun m => t.walk m b := by
  induction a generalizing n with
  | nil => rfl
  | cons c cs ih =>
    simp only [List.cons_append, walk]
    cases t.next n c with
    | none => rfl
    | some m => simp [ih]

theorem walk_snoc (t : Trie) (n : Nat) (a : List Byte) (c : Byte) :
    t.walk n (a ++ [c]) = (t.walk n a).bind fun m => t.next m c := by
  rw [walk_append]
  congr 1
  funext m
  simp only [walk]
  cases t.next m c <;> rfl

/-- Tree-shape invariant. -/
structure Inv (t : Trie) : Prop where
  pos : 0 < t.count
  dom : ∀ n c m, t.next n c = some m → n < t.count ∧ m < t.count ∧ m ≠ 0
  inj : ∀ n c n' c' m, t.next n c = some m → t.next n' c' = some m → n = n' ∧ c = c'

theorem inv_empty : Inv empty := ⟨by decide, by simp [empty], by simp [empty]⟩

theorem walk_lt {t : Trie} (h : Inv t) {k m} (hw : t.walk 0 k = some m) : m < t.count := by
  rcases List.eq_nil_or_concat k with rfl | ⟨a, c, rfl⟩
  · simp [walk] at hw; subst hw; exact h.pos
  · rw [List.concat_eq_append, walk_snoc] at hw
    cases ha : t.walk 0 a with
    | none => simp [ha] at hw
    | some n => simp [ha] at hw; exact (h.dom _ _ _ hw).2.1

theorem walk_inj {t : Trie} (h : Inv t) : ∀ (len : Nat) (a b : List Byte) (m : Nat), a.length = len →
    t.walk 0 a = some m → t.walk 0 b = some m → a = b := by
  intro len
  induction len with
  | zero =>
    intro a b m hl ha hb
    rw [List.length_eq_zero_iff] at hl
    subst hl
    simp [walk] at ha; subst ha
    rcases List.eq_nil_or_concat b with rfl | ⟨b', c, rfl⟩
    · rfl
    · rw [List.concat_eq_append, walk_snoc] at hb
      cases hb' : t.walk 0 b' with
      | none => simp [hb'] at hb
      | some n => simp [hb'] at hb; exact absurd rfl (h.dom _ _ _ hb).2.2
  | succ len ih =>
    intro a b m hl ha hb
    rcases List.eq_nil_or_concat a with rfl | ⟨a', c, rfl⟩
    · simp at hl
    · rw [List.concat_eq_append, walk_snoc] at ha
      cases ha' : t.walk 0 a' with
      | none => simp [ha'] at ha
      | some n =>
        simp [ha'] at ha
        rcases List.eq_nil_or_concat b with rfl | ⟨b', c', rfl⟩
        · simp [walk] at hb; subst hb; exact absurd rfl (h.dom _ _ _ ha).2.2
        · rw [List.concat_eq_append, walk_snoc] at hb
          cases hb' : t.walk 0 b' with
          | none => simp [hb'] at hb
          | some n' =>
            simp [hb'] at hb
            obtain ⟨rfl, rfl⟩ := h.inj _ _ _ _ _ ha hb
            have := ih a' b' n (by simpa using hl) ha' hb'
            rw [this]

theorem walk_inj' {t : Trie} (h : Inv t) {a b m} (ha : t.walk 0 a = some m) (hb : t.walk 0 b = some m) : a = b :=
  walk_inj h a.length a b m rfl ha hb

/-- The map represented by the trie. -/
def abs (t : Trie) (k : List Byte) : Option Nat := (t.walk 0 k).bind t.value

theorem inv_addNode {t : Trie} (h : Inv t) {n c} (hn : n < t.count) : Inv (t.addNode n c) := by
  have hd := h.dom
  have hi := h.inj
  have hp := h.pos
  constructor
  · simp [addNode]
  · intro a d m hm
    simp only [addNode] at hm ⊢
    split at hm
    · rename_i hh; injection hm with hm; subst hm; omega
    · have := hd _ _ _ hm; omega
  · intro a d a' d' m h1 h2
    simp only [addNode] at h1 h2
    split at h1
    · rename_i hh; injection h1 with h1; subst h1
      split at h2
      · rename_i hh'; exact ⟨hh.1.trans hh'.1.symm, hh.2.trans hh'.2.symm⟩
      · have := (hd _ _ _ h2).2.1; omega
    · split at h2
      · injection h2 with h2; subst h2; have := (hd _ _ _ h1).2.1; omega
      · exact hi _ _ _ _ _ h1 h2

/-- Effect of one new node on walks from the root. -/
theorem walk_addNode {t : Trie} (h : Inv t) {p n c} (hp : t.walk 0 p = some n) (hc : t.next n c = none)
    (len : Nat) : ∀ k : List Byte, k.length = len →
    (t.addNode n c).walk 0 k = match t.walk 0 k with
      | some m => some m
      | none => if k = p ++ [c] then some t.count else none := by
  induction len with
  | zero => intro k hl; rw [List.length_eq_zero_iff] at hl; subst hl; rfl
  | succ len ih =>
    intro k hl
    rcases List.eq_nil_or_concat k with rfl | ⟨k', d, rfl⟩
    · rfl
    · rw [List.concat_eq_append] at *
      rw [walk_snoc, walk_snoc, ih k' (by simpa using hl)]
      have hnc : ∀ d, t.next t.count d = none := by
        intro d
        cases hd : t.next t.count d with
        | none => rfl
        | some m => have := (h.dom _ _ _ hd).1; omega
      have hnlt := walk_lt h hp
      cases hk : t.walk 0 k' with
      | none =>
        have hne : ¬ (k' ++ [d] = p ++ [c]) := by
          intro he
          have := List.append_inj' he rfl
          rw [this.1, hp] at hk; simp at hk
        simp only [Option.bind_none, hne, if_false]
        split
        · simp only [Option.bind_some, addNode]
          rw [if_neg (by omega)]
          exact hnc d
        · rfl
      | some m =>
        simp only [Option.bind_some, addNode]
        by_cases hm : m = n ∧ d = c
        · obtain ⟨rfl, rfl⟩ := hm
          have : k' = p := walk_inj' h hk hp
          subst this
          simp [hc]
        · rw [if_neg hm]
          have hne : ¬ (k' ++ [d] = p ++ [c]) := by
            intro he
            have := List.append_inj' he rfl
            apply hm
            rw [this.1, hp] at hk
            injection hk with hk
            exact ⟨hk.symm, by simpa using this.2⟩
          rw [if_neg hne]
          cases t.next m d <;> rfl

theorem abs_addNode {t : Trie} (h : Inv t) {p n c} (hp : t.walk 0 p = some n) (hc : t.next n c = none) (k : List Byte) :
    (t.addNode n c).abs k = t.abs k := by
  unfold abs
  rw [walk_addNode h hp hc k.length k rfl]
  cases hk : t.walk 0 k with
  | some m =>
    have := walk_lt h hk
    simp [addNode]; omega
  | none =>
    simp only [Option.bind_none]
    split <;> simp [addNode]

theorem addNodes_spec {t : Trie} (h : Inv t) {p n} (r : List Byte) (hp : t.walk 0 p = some n)
    (hr : ∀ c cs, r = c :: cs → t.next n c = none) :
    Inv (t.addNodes n r).1 ∧ (t.addNodes n r).1.walk 0 (p ++ r) = some (t.addNodes n r).2 ∧
    ∀ k, (t.addNodes n r).1.abs k = t.abs k := by
  induction r generalizing t p n with
  | nil => simp [addNodes, h, hp]
  | cons c cs ih =>
    have hc := hr c cs rfl
    have hw := walk_addNode h hp hc (p ++ [c]).length (p ++ [c]) rfl
    have hw0 : t.walk 0 (p ++ [c]) = none := by rw [walk_snoc, hp]; simpa using hc
    rw [hw0] at hw
    simp only [if_true] at hw
    have hi := inv_addNode (c := c) h (walk_lt h hp)
    obtain ⟨i1, i2, i3⟩ := ih hi hw (by
      intro d ds _
      simp only [addNode]
      have := walk_lt h hp
      rw [if_neg (by omega)]
      cases hd : t.next t.count d with
      | none => rfl
      | some m => have := (h.dom _ _ _ hd).1; omega)
    simp only [addNodes]
    refine ⟨i1, by simpa using i2, fun k => ?_⟩
    rw [i3 k, abs_addNode h hp hc]

theorem walkExisting_spec (t : Trie) (n : Nat) (s : List Byte) :
    ∃ p, s = p ++ (t.walkExisting n s).2 ∧ t.walk n p = some (t.walkExisting n s).1 ∧
      ∀ c cs, (t.walkExisting n s).2 = c :: cs → t.next (t.walkExisting n s).1 c = none := by
  induction s generalizing n with
  | nil => exact ⟨[], rfl, rfl, by simp [walkExisting]⟩
  | cons c cs ih =>
    unfold walkExisting
    cases hc : t.next n c with
    | none =>
      refine ⟨[], rfl, rfl, ?_⟩
      intro d ds hd; injection hd with h1 h2; subst h1; exact hc
    | some m =>
      obtain ⟨p, h1, h2, h3⟩ := ih m
      refine ⟨c :: p, ?_, ?_, h3⟩
      · simp only [List.cons_append]; congr 1
      · simp [walk, hc, h2]

theorem insert_spec {t : Trie} (h : Inv t) (s : List Byte) (v : Nat) :
    Inv (t.insert s v) ∧ ∀ k, (t.insert s v).abs k = if k = s then some v else t.abs k := by
  obtain ⟨p, h1, h2, h3⟩ := walkExisting_spec t 0 s
  obtain ⟨i1, i2, i3⟩ := addNodes_spec h (t.walkExisting 0 s).2 h2 h3
  rw [← h1] at i2
  unfold insert
  simp only
  constructor
  · exact ⟨i1.pos, i1.dom, i1.inj⟩
  · intro k
    have hw : ∀ k n, Trie.walk { (t.addNodes (t.walkExisting 0 s).1 (t.walkExisting 0 s).2).1 with
        value := fun n => if n = (t.addNodes (t.walkExisting 0 s).1 (t.walkExisting 0 s).2).2 then some v
          else (t.addNodes (t.walkExisting 0 s).1 (t.walkExisting 0 s).2).1.value n } n k =
        (t.addNodes (t.walkExisting 0 s).1 (t.walkExisting 0 s).2).1.walk n k := by
      intro k
      induction k with
      | nil => intro n; rfl
      | cons c cs ih => intro n; simp only [walk]; congr 1; funext m; exact ih m
    rw [← i3 k]
    unfold abs
    rw [hw]
    generalize (t.addNodes (t.walkExisting 0 s).1 (t.walkExisting 0 s).2) = tn at *
    cases hk : tn.1.walk 0 k with
    | none =>
      simp only [Option.bind_none]
      split
      · rename_i he; subst he; rw [i2] at hk; simp at hk
      · rfl
    | some m =>
      simp only [Option.bind_some]
      by_cases hm : m = tn.2
      · subst hm
        have := walk_inj' i1 hk i2
        rw [if_pos rfl, if_pos this]
      · rw [if_neg hm, if_neg]
        intro he; subst he; rw [i2] at hk; injection hk with hk; exact hm hk.symm

/-- `findLoop` invariant: `p` is consumed, `vn` is the node of the longest valued proper prefix of `p`
(or the root when there is none). -/
theorem findLoop_spec (t : Trie) (s p : List Byte) (n vn : Nat) (q : List Byte) (hn : t.walk 0 p = some n)
    (hq : q <+: p) (hvn : t.walk 0 q = some vn) (hmax : ∀ q', q' <+: p → q' ≠ p → (t.abs q').isSome → q'.length ≤ q.length)
    (hval : (t.value vn).isSome ∨ vn = 0 ∧ q = []) :
    ∃ q', q' <+: p ++ s ∧ t.walk 0 q' = some (t.findLoop n vn s) ∧
      ((t.value (t.findLoop n vn s)).isSome ∨ q' = []) ∧
      ∀ k, k <+: p ++ s → (t.abs k).isSome → k.length ≤ q'.length := by
  induction s generalizing p n vn q with
  | nil =>
    simp only [findLoop, List.append_nil]
    by_cases hv : (t.value n).isSome
    · simp only [hv, if_true]
      exact ⟨p, List.prefix_rfl, hn, Or.inl trivial, fun k hk _ => hk.length_le⟩
    · simp only [hv]
      refine ⟨q, hq, hvn, hval.imp id (·.2), fun k hk ha => ?_⟩
      refine hmax k hk ?_ ha
      rintro rfl
      simp [abs, hn] at ha
      exact hv (by simpa using ha)
  | cons c cs ih =>
    simp only [findLoop]
    -- the updated value node
    have key : ∃ q2, q2 <+: p ∧ t.walk 0 q2 = some (if (t.value n).isSome then n else vn) ∧
        (∀ q', q' <+: p → (t.abs q').isSome → q'.length ≤ q2.length) ∧
        ((t.value (if (t.value n).isSome then n else vn)).isSome ∨
          (if (t.value n).isSome then n else vn) = 0 ∧ q2 = []) := by
      by_cases hv : (t.value n).isSome
      · simp only [hv, if_true]
        exact ⟨p, List.prefix_rfl, hn, fun k hk _ => hk.length_le, Or.inl trivial⟩
      · simp only [hv]
        refine ⟨q, hq, hvn, fun k hk ha => ?_, hval⟩
        refine hmax k hk ?_ ha
        rintro rfl
        simp [abs, hn] at ha
        exact hv (by simpa using ha)
    obtain ⟨q2, k1, k2, k3, k4⟩ := key
    generalize (if (t.value n).isSome then n else vn) = vn2 at *
    cases hc : t.next n c with
    | none =>
      simp only
      refine ⟨q2, List.IsPrefix.trans k1 (List.prefix_append _ _), k2, k4.imp id (·.2), fun k hk ha => ?_⟩
      -- a valued prefix cannot reach beyond `p`
      by_cases hl : k.length ≤ p.length
      · exact k3 k (List.prefix_of_prefix_length_le hk (List.prefix_append _ _) hl) ha
      · exfalso
        have hp : p ++ [c] <+: k := by
          apply List.prefix_of_prefix_length_le (l₃ := p ++ c :: cs) _ hk (by simp; omega)
          exact ⟨cs, by simp⟩
        obtain ⟨r, rfl⟩ := hp
        have : t.walk 0 (p ++ [c] ++ r) = none := by
          rw [walk_append, walk_snoc, hn]; simp [hc]
        unfold abs at ha
        rw [this] at ha
        simp at ha
    | some m =>
      simp only
      have := ih (p ++ [c]) m vn2 q2 (by rw [walk_snoc, hn]; simp [hc])
        (List.IsPrefix.trans k1 (List.prefix_append _ _)) k2 (by
          intro q' h1 h2 h3
          refine k3 q' ?_ h3
          apply List.prefix_of_prefix_length_le h1 (List.prefix_append _ _)
          have := h1.length_le
          rcases Nat.lt_or_ge p.length q'.length with h | h
          · exact absurd (List.IsPrefix.eq_of_length h1 (by simp at this ⊢; omega)) h2
          · exact h) k4
      simpa using this

/-- `findLongestPrefix` returns the value of the longest prefix the map is defined on. -/
theorem find_spec (t : Trie) (s : List Byte) :
    match t.findLongestPrefix s with
    | some v => ∃ k, k <+: s ∧ t.abs k = some v ∧ ∀ k', k' <+: s → (t.abs k').isSome → k'.length ≤ k.length
    | none => ∀ k, k <+: s → t.abs k = none := by
  obtain ⟨q, h1, h2, h3, h4⟩ := findLoop_spec t s [] 0 0 [] rfl List.prefix_rfl rfl (by simp) (by simp)
  simp only [List.nil_append] at h1 h4
  unfold findLongestPrefix
  cases hv : t.value (t.findLoop 0 0 s) with
  | some v => exact ⟨q, h1, by simp [abs, h2, hv], h4⟩
  | none =>
    rw [hv] at h3
    simp at h3
    subst h3
    simp only
    intro k hk
    cases ha : t.abs k with
    | none => rfl
    | some v =>
      have := h4 k hk (by simp [ha])
      have : k = [] := List.length_eq_zero_iff.mp (by simpa using this)
      subst this
      simp [abs, h2, hv] at ha

end Trie
end Armips.Table
