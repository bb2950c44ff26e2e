import Verif.Cc.BlockLemmas

/-!
# Lemmas: the CMAC of AES-SIV and AES-EAX is that of RFC 4493
-/

namespace Tink.Cc
open Spec

variable {E : Bytes → Bytes}

theorem length_pad {m : Bytes} (h : m.length < 16) : (Modes.pad m).length = 16 := by
  simp [Modes.pad]; omega

theorem xor_zero_left {a : Bytes} (h : a.length = 16) : xorBytes zeroBlock a = a := by
  rw [xorBytes_comm]
  exact xorBytes_zero (by omega)

theorem xor_last {x m : Bytes} (hx : x.length = m.length) : xorAt x 0 m = xorBytes x m := by
  rw [xorAt_eq (by omega)]
  simp [hx]

theorem xor_pad {x m : Bytes} (hx : x.length = 16) (hm : m.length < 16) :
    xorAt (xorAt x 0 m) m.length [0x80] = xorBytes x (Modes.pad m) := by
  rw [xorAt_eq (by simp; omega), xorAt_eq (by omega), xorBytes_assoc]
  congr 1
  have e : (16 - 0 - m.length) = 1 + (15 - m.length) := by omega
  simp only [length_xorBytes, hx, List.replicate_zero, List.nil_append, List.append_assoc, e]
  rw [xorBytes_append (by simp), xorBytes_zero (Nat.le_refl _), ← List.replicate_append_replicate,
    xorBytes_append (by simp)]
  unfold Modes.pad
  congr 1
  have e2 : (min 16 (m ++ (List.replicate 1 0 ++ List.replicate (15 - m.length) 0)).length - m.length
      - [(0x80 : UInt8)].length) = 15 - m.length := by simp; omega
  rw [e2, xorBytes_zero (by simp)]
  rfl

/-- The blocks of a message after the first. -/
theorem blocks_tail (f : Bytes → Bytes → Bytes) (x data : Bytes) (n : Nat) :
    (List.range (n + 1)).foldl (fun b i => f b ((data.drop (16 * i)).take 16)) x
      = (List.range n).foldl (fun b i => f b (((data.drop 16).drop (16 * i)).take 16)) (f x (data.take 16)) := by
  rw [List.range_succ_eq_map, List.foldl_cons, List.foldl_map]
  simp only [Nat.mul_zero, List.drop_zero, List.drop_drop]
  congr 1
  funext b i
  rw [show 16 * i.succ = 16 + 16 * i by omega]

/-- `Cmac` started with another block. -/
def sivCmacFrom (k : AesSiv.Keys) (x data : Bytes) : Bytes :=
  let blocks := max 1 ((data.length + 15) / 16)
  let lastBlockIdx := 16 * (blocks - 1)
  let lastBlockSize := data.length - lastBlockIdx
  let block := (List.range (blocks - 1)).foldl
    (fun block i => k.encryptBlock (xorBytes block ((data.drop (16 * i)).take 16))) x
  let block := xorAt block 0 (data.drop lastBlockIdx)
  let block := if lastBlockSize = 16 then xorBytes block k.cmacK1
    else xorBytes (xorAt block lastBlockSize [0x80]) k.cmacK2
  k.encryptBlock block

theorem sivCmacFrom_eq (k : AesSiv.Keys) (hE : ∀ b, (k.encryptBlock b).length = 16) (x data : Bytes)
    (hx : x.length = 16) :
    sivCmacFrom k x data = Modes.cmacFrom k.encryptBlock k.cmacK1 k.cmacK2 x data := by
  induction hn : data.length using Nat.strongRecOn generalizing x data with
  | ind n ih =>
    subst hn
    unfold Modes.cmacFrom
    split
    · rename_i h
      unfold sivCmacFrom
      rw [h, show max 1 ((16 + 15) / 16) = 1 from rfl]
      simp only [Nat.sub_self, Nat.mul_zero, List.range_zero, List.foldl_nil, List.drop_zero, Nat.sub_zero,
        if_true]
      rw [xor_last (by omega), xorBytes_assoc]
      rfl
    · split
      · rename_i h h'
        unfold sivCmacFrom
        rw [show max 1 ((data.length + 15) / 16) = 1 by omega]
        simp only [Nat.sub_self, Nat.mul_zero, List.range_zero, List.foldl_nil, List.drop_zero, Nat.sub_zero,
          if_neg h]
        rw [xor_pad hx h', xorBytes_assoc]
        rfl
      · rename_i h h'
        rw [← ih (data.drop 16).length (by rw [List.length_drop]; omega) _ (data.drop 16) (hE _) rfl]
        unfold sivCmacFrom
        have e : max 1 ((data.length + 15) / 16) - 1 = (max 1 (((data.drop 16).length + 15) / 16) - 1) + 1 := by
          rw [List.length_drop]; omega
        simp only [e]
        rw [blocks_tail fun b d => k.encryptBlock (xorBytes b d)]
        have e2 : ∀ q, data.drop (16 * (q + 1)) = (data.drop 16).drop (16 * q) := by
          intro q
          rw [List.drop_drop, show 16 * (q + 1) = 16 + 16 * q by omega]
        have e3 : ∀ q, data.length - 16 * (q + 1) = (data.drop 16).length - 16 * q := by
          intro q
          rw [List.length_drop]; omega
        rw [e2, e3]
        rfl

theorem sivKeys_k1 (hE : ∀ b, (E b).length = 16) :
    (AesSiv.keys E).cmacK1 = Modes.dbl (E (Modes.block 0)) := by
  rw [block_zero]
  exact siv_multiplyByX (hE _)

theorem sivKeys_k2 (hE : ∀ b, (E b).length = 16) :
    (AesSiv.keys E).cmacK2 = Modes.dbl (Modes.dbl (E (Modes.block 0))) := by
  rw [block_zero]
  show AesSiv.multiplyByX (AesSiv.multiplyByX (E zeroBlock)) = _
  rw [siv_multiplyByX (hE _), siv_multiplyByX (length_dbl _)]

theorem siv_cmac (hE : ∀ b, (E b).length = 16) (data : Bytes) :
    AesSiv.cmac (AesSiv.keys E) data = Modes.cmac E data := by
  have := sivCmacFrom_eq (AesSiv.keys E) hE zeroBlock data rfl
  rw [sivKeys_k1 hE, sivKeys_k2 hE] at this
  rw [Modes.cmac, block_zero] at *
  exact this

theorem length_cmacFrom (hE : ∀ b, (E b).length = 16) (k1 k2 x m : Bytes) :
    (Modes.cmacFrom E k1 k2 x m).length = 16 := by
  induction hn : m.length using Nat.strongRecOn generalizing x m with
  | ind n ih =>
    subst hn
    unfold Modes.cmacFrom
    split
    · exact hE _
    · split
      · exact hE _
      · exact ih _ (by rw [List.length_drop]; omega) _ _ rfl

@[simp] theorem length_cmac (hE : ∀ b, (E b).length = 16) (m : Bytes) : (Modes.cmac E m).length = 16 :=
  length_cmacFrom hE _ _ _ _

/-! ## `CmacLong` -/

theorem xorend_step {m d : Bytes} (h : 32 ≤ m.length) :
    Modes.xorend m d = m.take 16 ++ Modes.xorend (m.drop 16) d := by
  unfold Modes.xorend
  rw [List.length_drop, List.drop_drop, ← List.append_assoc]
  congr 1
  · rw [List.take_drop, show 16 + (m.length - 16 - 16) = m.length - 16 by omega]
    conv => lhs; rw [← List.take_append_drop 16 (m.take (m.length - 16))]
    rw [List.take_take, show min 16 (m.length - 16) = 16 by omega]
  · rw [show 16 + (m.length - 16 - 16) = m.length - 16 by omega]

theorem length_xorend {m d : Bytes} (h : 16 ≤ m.length) (hd : d.length = 16) :
    (Modes.xorend m d).length = m.length := by
  simp [Modes.xorend, xor_eq, hd]; omega

/-- The end of `CmacLong`, when less than a block is left. -/
theorem cmacLongEnd_eq (k : AesSiv.Keys) (hE : ∀ b, (k.encryptBlock b).length = 16) (x b rest last : Bytes)
    (hx : x.length = 16) (hb : b.length = 16) (hr : rest.length < 16) (hl : last.length = 16) :
    AesSiv.cmacLongEnd k last (xorBytes x b) rest
      = Modes.cmacFrom k.encryptBlock k.cmacK1 k.cmacK2 x (Modes.xorend (b ++ rest) last) := by
  have hlen : (Modes.xorend (b ++ rest) last).length = 16 + rest.length := by
    rw [length_xorend (by simp; omega) hl]; simp; omega
  unfold AesSiv.cmacLongEnd
  by_cases h0 : rest.length = 0
  · have hrest := List.length_eq_zero_iff.1 h0
    subst hrest
    unfold Modes.cmacFrom
    rw [if_pos (by rw [hlen]; rfl)]
    have : Modes.xorend (b ++ []) last = xorBytes b last := by
      simp [Modes.xorend, xor_eq, hb]
    rw [this]
    simp only [List.length_nil, if_true, Nat.sub_zero]
    rw [List.take_of_length_le (by omega), xor_last (by simp; omega)]
    rw [xorBytes_assoc, xorBytes_assoc, xor_eq, xorBytes_assoc]
  · unfold Modes.cmacFrom
    rw [if_neg (by omega), if_neg (by omega)]
    generalize hrl : rest.length = r at *
    have hxe : Modes.xorend (b ++ rest) last
        = xorBytes b (List.replicate r 0 ++ last.take (16 - r)) ++ xorBytes rest (last.drop (16 - r)) := by
      have e1 : (b ++ rest).length - 16 = r := by simp; omega
      have hsplit : b = b.take r ++ b.drop r := (List.take_append_drop r b).symm
      have hlsplit : last = last.take (16 - r) ++ last.drop (16 - r) := (List.take_append_drop _ last).symm
      unfold Modes.xorend
      rw [e1, List.take_append_of_le_length (by omega), List.drop_append_of_le_length (by omega), xor_eq]
      conv => lhs; rw [hlsplit]
      rw [xorBytes_append (by rw [List.length_drop, List.length_take]; omega), ← List.append_assoc]
      congr 1
      conv => rhs; rw [hsplit]
      rw [xorBytes_append (by rw [List.length_take, List.length_replicate]; omega),
        xorBytes_zero (by rw [List.length_take]; omega)]
    have hfst : (xorBytes b (List.replicate r 0 ++ last.take (16 - r))).length = 16 := by
      simp; omega
    rw [hxe, List.take_left' hfst, List.drop_left' hfst]
    have htl : (xorBytes rest (last.drop (16 - r))).length = r := by simp; omega
    unfold Modes.cmacFrom
    rw [htl, if_neg (by omega), if_pos (by omega)]
    have h1 : xorAt (xorBytes x b) r (last.take (16 - r))
        = xorBytes x (xorBytes b (List.replicate r 0 ++ last.take (16 - r))) := by
      rw [xorAt_eq (by simp; omega), xorBytes_assoc]
      congr 2
      simp only [length_xorBytes, List.length_take]
      rw [show min x.length b.length - r - min (16 - r) last.length = 0 by omega]
      simp
    simp only [h1, h0, if_false]
    congr 1
    rw [xor_eq]
    generalize hy : k.encryptBlock (xorBytes x _) = y
    rw [← xorBytes_assoc y]
    congr 1
    have hyl : y.length = 16 := by rw [← hy]; exact hE _
    have h2 : xorAt (xorAt y 0 (last.drop (16 - r))) 0 rest = xorAt y 0 (xorBytes rest (last.drop (16 - r))) := by
      have hd : (last.drop (16 - r)).length = r := by rw [List.length_drop]; omega
      rw [xorAt_eq (by simp; omega), xorAt_eq (by omega), xorAt_eq (by rw [htl]; omega), xorBytes_assoc]
      congr 1
      simp only [length_xorBytes, List.replicate_zero, List.nil_append]
      rw [show y.length - 0 - (last.drop (16 - r)).length = 16 - r by omega,
        show min y.length (last.drop (16 - r) ++ List.replicate (16 - r) (0 : UInt8)).length - 0 - rest.length
          = 16 - r by simp; omega,
        show y.length - 0 - min rest.length (last.drop (16 - r)).length = 16 - r by omega,
        xorBytes_append (by omega), xorBytes_comm (last.drop (16 - r)), xorBytes_zero (by simp)]
    rw [h2]
    have := xor_pad (x := y) (m := xorBytes rest (last.drop (16 - r))) hyl (by omega)
    rw [htl] at this
    exact this

theorem cmacLong_from (k : AesSiv.Keys) (hE : ∀ b, (k.encryptBlock b).length = 16) (x data last : Bytes)
    (hx : x.length = 16) (hd : 16 ≤ data.length) (hl : last.length = 16) :
    AesSiv.cmacLongEnd k last
        (AesSiv.cmacLongLoop k (xorBytes x (data.take 16)) (data.drop 16)).1
        (AesSiv.cmacLongLoop k (xorBytes x (data.take 16)) (data.drop 16)).2
      = Modes.cmacFrom k.encryptBlock k.cmacK1 k.cmacK2 x (Modes.xorend data last) := by
  induction hn : data.length using Nat.strongRecOn generalizing x data with
  | ind n ih =>
    subst hn
    unfold AesSiv.cmacLongLoop
    by_cases h : 16 ≤ (data.drop 16).length
    · rw [if_pos h]
      have h32 : 32 ≤ data.length := by rw [List.length_drop] at h; omega
      rw [ih (data.drop 16).length (by rw [List.length_drop]; omega) _ (data.drop 16) (hE _) h rfl]
      conv => rhs; unfold Modes.cmacFrom
      have hle := length_xorend hd hl
      rw [if_neg (by omega), if_neg (by omega), xorend_step h32,
        List.take_left' (by rw [List.length_take]; omega), List.drop_left' (by rw [List.length_take]; omega)]
      rfl
    · rw [if_neg h]
      have := cmacLongEnd_eq k hE x (data.take 16) (data.drop 16) last hx
        (by rw [List.length_take]; omega) (by omega) hl
      rw [List.take_append_drop] at this
      exact this

theorem siv_cmacLong (hE : ∀ b, (E b).length = 16) {data last : Bytes} (hd : 16 ≤ data.length)
    (hl : last.length = 16) :
    AesSiv.cmacLong (AesSiv.keys E) data last = Modes.cmac E (Modes.xorend data last) := by
  have := cmacLong_from (AesSiv.keys E) hE zeroBlock data last rfl hd hl
  rw [sivKeys_k1 hE, sivKeys_k2 hE, xor_zero_left (by rw [List.length_take]; omega)] at this
  rw [Modes.cmac, block_zero] at *
  exact this

theorem length_s2v (hE : ∀ b, (E b).length = 16) (ad m : Bytes) : (Modes.s2v E ad m).length = 16 := by
  unfold Modes.s2v
  dsimp only
  split <;> exact length_cmac hE _

/-- `S2v` of AES-SIV. -/
theorem siv_s2v (hE : ∀ b, (E b).length = 16) (ad m : Bytes) :
    AesSiv.s2v (AesSiv.keys E) ad m = Modes.s2v E ad m := by
  unfold AesSiv.s2v Modes.s2v
  simp only [siv_cmac hE]
  rw [siv_multiplyByX (length_cmac hE _), block_zero, xor_eq]
  have hd : (xorBytes (Modes.dbl (Modes.cmac E zeroBlock)) (Modes.cmac E ad)).length = 16 := by
    simp [length_cmac hE]
  by_cases h : m.length < 16
  · rw [if_neg (by omega), if_pos h, siv_multiplyByX hd, xor_pad (length_dbl _) h]
  · rw [if_pos (by omega), if_neg h, siv_cmacLong hE (by omega) hd]

/-! ## `Omac` of AES-EAX -/

theorem eax_pad (k : AesEax.Keys) {m x : Bytes} (h : m.length ≤ 16) :
    xorBytes (AesEax.pad k m) x
      = if m.length = 16 then xorBytes x (xorBytes m k.B) else xorBytes x (xorBytes (Modes.pad m) k.P) := by
  unfold AesEax.pad
  split
  · rename_i h'
    rw [h', Nat.sub_self, List.replicate_zero, List.append_nil, xorBytes_comm, xorBytes_comm k.B]
  · rename_i h'
    have : (m ++ List.replicate (16 - m.length) 0).set m.length 0x80 = Modes.pad m := by
      rw [List.set_append_right _ _ (Nat.le_refl _), Nat.sub_self, Modes.pad,
        show 16 - m.length = (15 - m.length) + 1 by omega, List.replicate_succ]
      rfl
    simp only [this]
    rw [xorBytes_comm, xorBytes_comm k.P]

theorem eax_omacLoop (k : AesEax.Keys) (x m : Bytes) :
    AesEax.omacLoop k x m = Modes.cmacFrom k.encryptBlock k.B k.P x m := by
  induction hn : m.length using Nat.strongRecOn generalizing x m with
  | ind n ih =>
    subst hn
    unfold AesEax.omacLoop Modes.cmacFrom
    split
    · rename_i h
      rw [if_neg (by omega), if_neg (by omega), ih _ (by rw [List.length_drop]; omega) _ _ rfl, xorBytes_comm]
      rfl
    · rename_i h
      rw [eax_pad k (by omega)]
      split
      · rfl
      · rw [if_pos (by omega)]
        rfl

/-- `Omac` of AES-EAX. -/
theorem eax_omac (hE : ∀ b, (E b).length = 16) (m : Bytes) (t : UInt8) :
    AesEax.omac (AesEax.keys E) m t = Modes.omac E t.toNat m := by
  have hB : (AesEax.keys E).B = Modes.dbl (E (Modes.block 0)) := by
    rw [block_zero]; exact eax_multiplyByX (hE _)
  have hP : (AesEax.keys E).P = Modes.dbl (Modes.dbl (E (Modes.block 0))) := by
    rw [block_zero]
    show AesEax.multiplyByX (AesEax.multiplyByX (E zeroBlock)) = _
    rw [eax_multiplyByX (hE _), eax_multiplyByX (length_dbl _)]
  have ht : zeroBlock.set 15 t = Modes.block t.toNat := by
    have hlt := t.toNat_lt
    apply fromBytesBE_inj
    · simp [length_block, zeroBlock]
    · rw [show zeroBlock.set 15 t = List.replicate 15 0 ++ [t] from rfl, fromBytesBE_append,
        fromBytesBE_replicate]
      unfold Modes.block
      rw [fromBytesBE_digits _ _ (by omega)]
      omega
  unfold AesEax.omac Modes.omac Modes.cmac
  simp only [ht]
  unfold Modes.cmacFrom
  rw [List.length_append, length_block]
  cases m with
  | nil =>
    simp only [List.isEmpty_nil, if_true, List.length_nil, List.append_nil]
    rw [hB, xor_eq, block_zero, xor_zero_left (by simp [length_block]), xorBytes_comm]
    rfl
  | cons y m =>
    simp only [List.isEmpty_cons, Bool.false_eq_true, if_false]
    rw [if_neg (by simp), if_neg (by simp), eax_omacLoop, hB, hP,
      List.take_left' (length_block _), List.drop_left' (length_block _), xor_eq, block_zero,
      xor_zero_left (length_block _)]
    rfl

theorem length_omac (hE : ∀ b, (E b).length = 16) (t : Nat) (m : Bytes) :
    (Modes.omac E t m).length = 16 := length_cmac hE _

end Tink.Cc
