import Verif.Spec.TestStreams
import Verif.Stream.CppOutput

/-!
# Lemmas about streams for tests
-/

namespace Tink.Testing
open Spec
variable {σ : Type}

theorem unblockedCalls_succ (k : Nat) : unblockedCalls (k + 1) = unblockedCalls k + if k % 3 = 0 then 0 else 1 := by
  unfold unblockedCalls
  rw [List.range_succ, List.filter_append, List.length_append]
  congr 1
  by_cases h : k % 3 = 0 <;> simp [h]

theorem unblockedCalls_eq (k : Nat) : unblockedCalls k = k - (k + 2) / 3 := by
  induction k with
  | zero => rfl
  | succ k ih =>
    rw [unblockedCalls_succ, ih]
    split <;> omega

/-- What a stream has not yet delivered. -/
def BytesIO.rest (f : BytesIO) : Bytes := f.value.drop f.pos

theorem read_some {f : BytesIO} (hc : f.closed = false) (n : Nat) :
    (f.read (some n)).2 = .data (f.rest.take n) ∧ (f.read (some n)).1.rest = f.rest.drop n ∧
      (f.read (some n)).1.closed = false := by
  unfold BytesIO.read BytesIO.rest
  rw [hc]
  have : ¬ (n : Int) < 0 := by omega
  simp only [Bool.false_eq_true, if_false, this, Int.toNat_natCast]
  refine ⟨?_, ?_, trivial⟩
  · rw [show f.value.length - f.pos = (f.value.drop f.pos).length from List.length_drop.symm, 
      ← List.take_take, List.take_length]
  · rw [List.drop_drop]
    by_cases h : n ≤ f.value.length - f.pos
    · rw [Nat.min_eq_left h]
    · rw [Nat.min_eq_right (by omega), List.drop_eq_nil_of_le (by omega), List.drop_eq_nil_of_le (by omega)]

/-- What the two slow streams have in common. -/
structure SlowStep (src : Source σ) (rest : σ → Bytes) (calls : σ → Nat) (ok : σ → Prop) (big : Nat → Prop) (size : Nat → Nat)
    (L : Nat) : Prop where
  counted : ∀ s n, ok s → big n → calls (src.read s n).1 = calls s + 1 ∧ ok (src.read s n).1
  limit : ∀ s n, ok s → big n → calls s > L →
    (src.read s n).2 = .raised assertionError ∧ rest (src.read s n).1 = rest s
  blocked : ∀ s n, ok s → big n → calls s ≤ L → calls s % 3 = 0 →
    ((src.read s n).2 = .none ∨ (src.read s n).2 = .blocking) ∧ rest (src.read s n).1 = rest s
  data : ∀ s n, ok s → big n → calls s ≤ L → calls s % 3 ≠ 0 →
    (src.read s n).2 = .data ((rest s).take (size n)) ∧ rest (src.read s n).1 = (rest s).drop (size n)

theorem SlowStep.bytes {src : Source σ} {rest : σ → Bytes} {calls : σ → Nat} {ok : σ → Prop} {big : Nat → Prop}
    {size : Nat → Nat} {L : Nat} (H : SlowStep src rest calls ok big size L) {s : σ} (hs : ok s) {n : Nat} (hn : big n) :
    rest s = (src.read s n).2.bytes ++ rest (src.read s n).1 ∧
      (src.read s n).2.bytes.length ≤ (if calls s ≤ L ∧ calls s % 3 ≠ 0 then size n else 0) := by
  by_cases hl : calls s > L
  · obtain ⟨h1, h2⟩ := H.limit s n hs hn hl
    rw [h1, h2]
    exact ⟨rfl, Nat.zero_le _⟩
  · by_cases hb : calls s % 3 = 0
    · obtain ⟨h1, h2⟩ := H.blocked s n hs hn (by omega) hb
      rw [h2]
      rcases h1 with h1 | h1 <;> rw [h1] <;> exact ⟨rfl, Nat.zero_le _⟩
    · obtain ⟨h1, h2⟩ := H.data s n hs hn (by omega) hb
      rw [h1, h2, if_pos ⟨by omega, hb⟩]
      refine ⟨(List.take_append_drop _ _).symm, ?_⟩
      show (List.take _ _).length ≤ _
      rw [List.length_take]; exact Nat.min_le_left _ _

theorem SlowStep.prefix {src : Source σ} {rest : σ → Bytes} {calls : σ → Nat} {ok : σ → Prop} {big : Nat → Prop}
    {size : Nat → Nat} {L : Nat} (H : SlowStep src rest calls ok big size L) (ns : List Nat) : ∀ s, ok s → (∀ n ∈ ns, big n) →
    rest s = allBytes (readMany src s ns).2 ++ rest (readMany src s ns).1 ∧
    calls (readMany src s ns).1 = calls s + ns.length ∧ ok (readMany src s ns).1 := by
  induction ns with
  | nil => intro s hs _; exact ⟨rfl, rfl, hs⟩
  | cons n ns ih =>
    intro s hs hn
    obtain ⟨hc, hok⟩ := H.counted s n hs (hn n List.mem_cons_self)
    obtain ⟨h1, h2, h3⟩ := ih _ hok (fun m hm => hn m (List.mem_cons_of_mem _ hm))
    obtain ⟨h4, _⟩ := H.bytes hs (hn n List.mem_cons_self)
    refine ⟨?_, ?_, h3⟩
    · rw [h4, h1]
      simp [readMany, allBytes]
    · show calls (readMany src (src.read s n).1 ns).1 = _
      rw [h2, hc, List.length_cons]; omega

/-- No more than this is delivered. -/
theorem SlowStep.atMost {src : Source σ} {rest : σ → Bytes} {calls : σ → Nat} {ok : σ → Prop} {big : Nat → Prop}
    {size : Nat → Nat} {L : Nat} (H : SlowStep src rest calls ok big size L) (h5 : ∀ n, size n ≤ 5) (ns : List Nat) :
    ∀ s, ok s → (∀ n ∈ ns, big n) →
    (allBytes (readMany src s ns).2).length + 5 * unblockedCalls (min (calls s) (L + 1)) ≤
      5 * unblockedCalls (min (calls s + ns.length) (L + 1)) := by
  induction ns with
  | nil => intro s _ _; simp [readMany, allBytes]
  | cons n ns ih =>
    intro s hs hn
    obtain ⟨hc, hok⟩ := H.counted s n hs (hn n List.mem_cons_self)
    have h1 := ih _ hok (fun m hm => hn m (List.mem_cons_of_mem _ hm))
    obtain ⟨_, h4⟩ := H.bytes hs (hn n List.mem_cons_self)
    have h6 := h5 n
    have hlen : (allBytes (readMany src s (n :: ns)).2).length =
        (src.read s n).2.bytes.length + (allBytes (readMany src (src.read s n).1 ns).2).length := by
      simp [readMany, allBytes]
    rw [hlen, List.length_cons]
    rw [hc] at h1
    have e : calls s + 1 + ns.length = calls s + (ns.length + 1) := by omega
    rw [e] at h1
    by_cases hl : calls s ≤ L
    · have e1 : min (calls s) (L + 1) = calls s := by omega
      have e2 : min (calls s + 1) (L + 1) = calls s + 1 := by omega
      rw [e2, unblockedCalls_succ] at h1
      rw [e1]
      by_cases hb : calls s % 3 = 0
      · rw [if_neg (by simp [hb])] at h4
        rw [if_pos hb] at h1
        omega
      · rw [if_pos ⟨hl, hb⟩] at h4
        rw [if_neg hb] at h1
        omega
    · rw [if_neg (by omega)] at h4
      have e1 : min (calls s) (L + 1) = (L + 1) := by omega
      have e2 : min (calls s + 1) (L + 1) = (L + 1) := by omega
      rw [e2] at h1
      rw [e1]
      omega

/-- If five bytes are delivered by every call that is not blocked. -/
theorem SlowStep.exact {src : Source σ} {rest : σ → Bytes} {calls : σ → Nat} {ok : σ → Prop} {big : Nat → Prop}
    {size : Nat → Nat} {L : Nat} (H : SlowStep src rest calls ok big size L) (ns : List Nat) :
    ∀ s, ok s → (∀ n ∈ ns, big n ∧ size n = 5) → calls s + ns.length ≤ (L + 1) →
    ∃ d, d + 5 * unblockedCalls (calls s) = 5 * unblockedCalls (calls s + ns.length) ∧
      allBytes (readMany src s ns).2 = (rest s).take d ∧
    ∀ i (hi : i < (readMany src s ns).2.length),
      ((readMany src s ns).2[i] = .none ∨ (readMany src s ns).2[i] = .blocking ↔ (calls s + i) % 3 = 0) ∧
      ∀ e, (readMany src s ns).2[i] ≠ .raised e := by
  induction ns with
  | nil => intro s _ _ _; exact ⟨0, by simp, by simp [readMany, allBytes], fun i hi => by simp [readMany] at hi⟩
  | cons n ns ih =>
    intro s hs hn hlen
    rw [List.length_cons] at hlen
    obtain ⟨hbig, h5⟩ := hn n List.mem_cons_self
    obtain ⟨hc, hok⟩ := H.counted s n hs hbig
    obtain ⟨d, h1, h2, h3⟩ := ih _ hok (fun m hm => hn m (List.mem_cons_of_mem _ hm)) (by omega)
    rw [hc, unblockedCalls_succ] at h1
    rw [hc] at h3
    have e : calls s + 1 + ns.length = calls s + (ns.length + 1) := by omega
    rw [e] at h1
    have hall : allBytes (readMany src s (n :: ns)).2 =
        (src.read s n).2.bytes ++ allBytes (readMany src (src.read s n).1 ns).2 := by
      simp [readMany, allBytes]
    have hres : (readMany src s (n :: ns)).2 = (src.read s n).2 :: (readMany src (src.read s n).1 ns).2 := rfl
    have htail : ∀ i (hi : i + 1 < (readMany src s (n :: ns)).2.length),
        ((readMany src s (n :: ns)).2[i + 1] = .none ∨ (readMany src s (n :: ns)).2[i + 1] = .blocking ↔
          (calls s + (i + 1)) % 3 = 0) ∧ ∀ e, (readMany src s (n :: ns)).2[i + 1] ≠ .raised e := by
      intro i hi
      have hi' : i < (readMany src (src.read s n).1 ns).2.length := by
        rw [hres, List.length_cons] at hi; omega
      have := h3 i hi'
      have e : calls s + 1 + i = calls s + (i + 1) := by omega
      rw [e] at this
      exact this
    rw [List.length_cons]
    by_cases hb : calls s % 3 = 0
    · obtain ⟨a1, a2⟩ := H.blocked s n hs hbig (by omega) hb
      rw [if_pos hb] at h1
      rw [a2] at h2
      refine ⟨d, by omega, ?_, ?_⟩
      · rw [hall, h2]
        rcases a1 with a1 | a1 <;> rw [a1] <;> rfl
      · intro i hi
        cases i with
        | zero =>
          show ((src.read s n).2 = .none ∨ (src.read s n).2 = .blocking ↔ _) ∧ ∀ e, (src.read s n).2 ≠ .raised e
          refine ⟨⟨fun _ => hb, fun _ => a1⟩, fun e he => ?_⟩
          rcases a1 with a1 | a1 <;> rw [a1] at he <;> cases he
        | succ i => exact htail i hi
    · obtain ⟨a1, a2⟩ := H.data s n hs hbig (by omega) hb
      rw [if_neg hb] at h1
      rw [a2, h5] at h2
      rw [h5] at a1
      refine ⟨5 + d, by omega, ?_, ?_⟩
      · rw [hall, h2, a1]
        show List.take 5 _ ++ _ = _
        rw [List.take_add]
      · intro i hi
        cases i with
        | zero =>
          show ((src.read s n).2 = .none ∨ (src.read s n).2 = .blocking ↔ _) ∧ ∀ e, (src.read s n).2 ≠ .raised e
          rw [a1]
          refine ⟨⟨fun h => ?_, fun h => absurd h hb⟩, fun e he => by cases he⟩
          rcases h with h | h <;> cases h
        | succ i => exact htail i hi

theorem slow_step : SlowStep slowSource (fun f => f.io.rest) (·.calls) (fun f => f.io.closed = false) (0 < ·)
    (min · 5) 10000000 := by
  have key : ∀ (f : SlowBytesIO) (n : Nat), 0 < n → slowSource.read f n =
      if f.calls > 10000000 then ({ f with calls := f.calls + 1 }, .raised assertionError)
      else if f.calls % 3 = 0 then ({ f with calls := f.calls + 1 }, .blocking)
      else (⟨(f.io.read (some (min n 5 : Nat))).1, f.calls + 1⟩, (f.io.read (some (min n 5 : Nat))).2) := by
    intro f n hn
    unfold slowSource SlowBytesIO.read
    dsimp only
    rw [if_pos (by omega)]
    have : min (n : Int) 5 = ((min n 5 : Nat) : Int) := by omega
    rw [this]
  constructor
  · intro s n hs hn
    rw [key s n hn]
    split
    · exact ⟨rfl, hs⟩
    · split
      · exact ⟨rfl, hs⟩
      · exact ⟨rfl, (read_some hs _).2.2⟩
  · intro s n hs hn hl
    rw [key s n hn, if_pos hl]; exact ⟨rfl, rfl⟩
  · intro s n hs hn hl hb
    rw [key s n hn, if_neg (by omega), if_pos hb]; exact ⟨.inr rfl, rfl⟩
  · intro s n hs hn hl hb
    rw [key s n hn, if_neg (by omega), if_neg hb]
    exact ⟨(read_some hs _).1, (read_some hs _).2.1⟩

/-- What `SlowReadableRawBytes.read` does, for any size. -/
theorem raw_read (checks : Bool) (f : SlowReadableRawBytes) (hc : f.io.closed = false) (n : Nat) :
    (slowRawSource checks).read f n =
      if f.calls > 10000000 then ({ f with calls := f.calls + 1 }, .raised assertionError)
      else if f.calls % 3 = 0 then ({ f with calls := f.calls + 1 }, .none)
      else (⟨(f.io.read (some (5 : Nat))).1, f.calls + 1⟩,
        if checks && n < (f.io.rest.take 5).length then .raised .valueError else .data (f.io.rest.take 5)) := by
  unfold slowRawSource SlowReadableRawBytes.read SlowReadableRawBytes.readinto
  dsimp only
  by_cases h1 : f.calls > 10000000
  · rw [if_pos h1, if_pos h1]
  · rw [if_neg h1, if_neg h1]
    by_cases h2 : f.calls % 3 = 0
    · rw [if_pos h2, if_pos h2]
    · rw [if_neg h2, if_neg h2]
      have hr : (f.io.read (some 5)).2 = .data (f.io.rest.take 5) := (read_some hc 5).1
      rw [hr]
      dsimp only
      have ht : ∀ (q r : Bytes), (q ++ r).take q.length = q := fun q r => List.take_left
      rw [ht]
      split <;> rfl

theorem raw_step (checks : Bool) : SlowStep (slowRawSource checks) (fun f => f.io.rest) (·.calls)
    (fun f => f.io.closed = false) (5 ≤ ·) (fun _ => 5) 10000000 := by
  constructor
  · intro s n hs hn
    rw [raw_read checks s hs n]
    split
    · exact ⟨rfl, hs⟩
    · split
      · exact ⟨rfl, hs⟩
      · exact ⟨rfl, (read_some hs _).2.2⟩
  · intro s n hs hn hl
    rw [raw_read checks s hs n, if_pos hl]; exact ⟨rfl, rfl⟩
  · intro s n hs hn hl hb
    rw [raw_read checks s hs n, if_neg (by omega), if_pos hb]; exact ⟨.inl rfl, rfl⟩
  · intro s n hs hn hl hb
    rw [raw_read checks s hs n, if_neg (by omega), if_neg hb]
    have : ¬ n < (s.io.rest.take 5).length := by rw [List.length_take]; omega
    refine ⟨?_, (read_some hs 5).2.1⟩
    rw [if_neg (by simp only [Bool.and_eq_true, decide_eq_true_eq]; exact fun h => this h.2)]

end Tink.Testing
