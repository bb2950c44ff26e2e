import Verif.Stream.WrapperLemmas
import Verif.Props.PrimitiveSet

/-!
# C54: streaming decryption over a keyset
-/

namespace Tink.Props
open Spec DecryptingStreamWrapper

variable {σ τ δ ε : Type}

/-- The calls were answered without bytes and without `TinkError`. -/
def Quiet (calls : Calls) : Prop := NoData calls ∧ ¬ ∃ c ∈ calls, RaisedTink c.2

/-- Each call had a result that also some of the keys `qs`, alone on the ciphertext, gives (up to
the subclass of `TinkError`). -/
def AnsweredBy (qs : List (RawStreamingAead δ ε τ)) (ad : Bytes) (src : Source σ) (s : σ)
    (calls : Calls) : Prop :=
  ∀ c ∈ calls, ∃ q ∈ qs, ∃ alone, Alone q ad src s alone ∧
    ∃ c' ∈ alone, c'.1 = c.1 ∧ uptoTink c'.2 = uptoTink c.2

theorem history_inv {src : Source σ} {s : σ} {readable : Bool} {ad : Bytes}
    {ps : List (RawStreamingAead δ ε τ)} {w0 w : DecryptingStreamWrapper σ δ ε τ} {calls : Calls}
    (hopen : ∀ p ∈ ps, ∃ t, p.newRawDecryptingStream ad = .ok t)
    (hnew : DecryptingStreamWrapper.new ps s readable ad = .ok w0)
    (H : StreamHistory src w0 calls w) :
    ∃ pre p old now alone, ps = pre ++ p :: w.remaining ∧ calls = old ++ now ∧
      (∀ q ∈ pre, RefusesStream q ad src s) ∧ (Quiet old ∧ AnsweredBy pre ad src s old) ∧
      now.map (fun c => (c.1, uptoTink c.2)) = alone.map (fun c => (c.1, uptoTink c.2)) ∧
      Current src s ad w p alone ∧ w.ad = ad := by
  induction H with
  | start =>
    unfold DecryptingStreamWrapper.new at hnew
    obtain ⟨r, hr, hnew⟩ := bind_ok_iff.mp hnew
    unfold Rewindable.new at hr
    split at hr
    · cases hr
      cases ps with
      | nil => cases hnew
      | cons p ps =>
        obtain ⟨t, ht, hnew⟩ := bind_ok_iff.mp hnew
        cases hnew
        refine ⟨[], p, [], [], [], rfl, rfl, by simp, ⟨⟨(by intro c hc; cases hc),
          (by rintro ⟨c, hc, _⟩; cases hc)⟩, (by intro c hc; cases hc)⟩, rfl, ⟨t, [], s, t, ht, .start, .start, .inl ⟨rfl, rfl,
          ⟨rfl, .start⟩, (by intro c hc; cases hc), (by rintro ⟨c, hc, _⟩; cases hc)⟩⟩, rfl⟩
    · cases hr
  | @read calls w1 w2 size r fuel H1 hsz hmax hread ih =>
    obtain ⟨pre, p, old, now, alone, e1, e2, e3, ⟨e4, e4'⟩, e5, e6, e7⟩ := ih
    obtain ⟨t0, d, s', t, h0, hd, hs, hcase⟩ := e6.session
    unfold DecryptingStreamWrapper.read at hread
    rw [if_neg hsz] at hread
    rcases hcase with ⟨hm, ha, hk, hn, hq⟩ | hm
    · rw [hm, ha] at hread
      simp only at hread
      rw [e7] at hread
      obtain ⟨pre', p', res', f1, f2, f3, f4, f5⟩ := attempt_spec w1.remaining
        (fun q hq => hopen q (by rw [e1]; simp [hq])) h0 hd hs hk hn hq hmax hread
      by_cases hp : pre' = []
      · subst hp
        simp only [List.nil_append, List.cons.injEq] at f1
        obtain ⟨rfl, f1⟩ := f1
        refine ⟨pre, p, old, now ++ [(size, r)], alone ++ [(size, res')], by rw [← f1]; exact e1,
          by rw [e2, List.append_assoc], e3, ⟨e4, e4'⟩, ?_, by simpa using f4, f5⟩
        simp [e5, f3]
      · refine ⟨pre ++ pre', p', old ++ now, [(size, r)], [(size, res')], ?_, by rw [e2], ?_, ?_,
          by simp [f3], by simpa [hp] using f4, f5⟩
        · rw [e1, f1, List.append_assoc]
        · intro q hqm
          rw [List.mem_append] at hqm
          rcases hqm with hqm | hqm
          · exact e3 q hqm
          · exact f2 q hqm
        · -- the calls seen by the key that was given up are quiet, apart from the last one
          have hrem : w1.remaining ≠ [] := by
            intro h
            rw [h] at f1
            have := congrArg List.length f1
            have hl : 0 < pre'.length := List.length_pos_iff.mpr hp
            simp at this
            omega
          have hnt : ¬ ∃ c ∈ alone, RaisedTink c.2 := fun h => hrem (hq h)
          have hmap2 : ∀ c ∈ now, ∃ c' ∈ alone, c'.1 = c.1 ∧ uptoTink c'.2 = uptoTink c.2 := by
            intro c hc
            have : (c.1, uptoTink c.2) ∈ alone.map (fun c => (c.1, uptoTink c.2)) := by
              rw [← e5]; exact List.mem_map.mpr ⟨c, hc, rfl⟩
            obtain ⟨c', hc', he⟩ := List.mem_map.mp this
            exact ⟨c', hc', Prod.mk.inj he⟩
          have hmap : ∀ c ∈ now, ∃ c' ∈ alone, uptoTink c.2 = uptoTink c'.2 := by
            intro c hc
            obtain ⟨c', hc', -, he⟩ := hmap2 c hc
            exact ⟨c', hc', he.symm⟩
          have hpm : p ∈ pre ++ pre' := by
            cases pre' with
            | nil => exact absurd rfl hp
            | cons a as =>
              simp only [List.cons_append, List.cons.injEq] at f1
              rw [f1.1]
              simp
          refine ⟨?_, ?_⟩
          case' refine_2 =>
            intro c hc
            rw [List.mem_append] at hc
            rcases hc with hc | hc
            · obtain ⟨q, hqm, rest⟩ := e4' c hc
              exact ⟨q, by simp [hqm], rest⟩
            · exact ⟨p, hpm, alone, e6.alone, hmap2 c hc⟩
          constructor
          · intro c hc
            rw [List.mem_append] at hc
            rcases hc with hc | hc
            · exact e4.1 c hc
            · obtain ⟨c', hc', he⟩ := hmap c hc
              intro b hb
              rw [hb] at he
              have := hn c' hc'
              cases hx : c'.2 with
              | data b' => exact this b' hx
              | none | blocking => rw [hx] at he; simp [uptoTink] at he
              | raised x => rw [hx] at he; simp only [uptoTink] at he; split at he <;> cases he
          · rintro ⟨c, hc, x, hx, ht⟩
            rw [List.mem_append] at hc
            rcases hc with hc | hc
            · exact e4.2 ⟨c, hc, x, hx, ht⟩
            · obtain ⟨c', hc', he⟩ := hmap c hc
              rw [hx] at he
              simp only [uptoTink, if_pos ht] at he
              apply hnt
              cases hy : c'.2 with
              | data b' => rw [hy] at he; cases he
              | none | blocking => rw [hy] at he; cases he
              | raised y =>
                rw [hy] at he
                simp only at he
                by_cases hyt : y.isTink = true
                · exact ⟨c', hc', y, hy, hyt⟩
                · rw [if_neg hyt] at he
                  cases he
                  exact absurd rfl hyt
    · rw [hm] at hread
      simp only at hread
      cases hr : p.stream.run (rewindableSource src) fuel t size w1.source with
      | none => rw [hr] at hread; cases hread
      | some q =>
        obtain ⟨t1, r1, x⟩ := q
        rw [hr] at hread
        simp only [Option.some.injEq, Prod.mk.injEq] at hread
        obtain ⟨rfl, rfl⟩ := hread
        refine ⟨pre, p, old, now ++ [(size, x)], alone ++ [(size, x)], e1,
          by rw [e2, List.append_assoc], e3, ⟨e4, e4'⟩, by simp [e5],
          ⟨t0, d, s', t1, h0, hd, Session.read fuel hs hmax (run_pending hr), .inr rfl⟩, e7⟩

/-- C54.  Through every history of `read` calls, on every source: all results since some call on are
the results of a single key's stream, opened at the start of the ciphertext and alone on it; every
key before it in the list refused the ciphertext by `TinkError` before returning anything; and the
calls before returned nothing. -/
theorem C54_single_key {src : Source σ} {s : σ} {readable : Bool} {ad : Bytes}
    {ps : List (RawStreamingAead δ ε τ)} {w0 w : DecryptingStreamWrapper σ δ ε τ} {calls : Calls}
    (hopen : ∀ p ∈ ps, ∃ t, p.newRawDecryptingStream ad = .ok t)
    (hnew : DecryptingStreamWrapper.new ps s readable ad = .ok w0)
    (H : StreamHistory src w0 calls w) :
    ∃ pre p post old now alone, ps = pre ++ p :: post ∧ calls = old ++ now ∧
      (∀ q ∈ pre, RefusesStream q ad src s) ∧ Quiet old ∧ AnsweredBy pre ad src s old ∧
      Alone p ad src s alone ∧
      now.map (fun c => (c.1, uptoTink c.2)) = alone.map (fun c => (c.1, uptoTink c.2)) := by
  obtain ⟨pre, p, old, now, alone, e1, e2, e3, e4, e5, e6, _⟩ := history_inv hopen hnew H
  exact ⟨pre, p, _, old, now, alone, e1, e2, e3, e4.1, e4.2, e6.alone, e5⟩

/-- C54.  If a read raises `TinkError` before anything was returned, every key refused. -/
theorem C54_all_refuse {src : Source σ} {s : σ} {readable : Bool} {ad : Bytes}
    {ps : List (RawStreamingAead δ ε τ)} {w0 w : DecryptingStreamWrapper σ δ ε τ} {calls : Calls}
    (hopen : ∀ p ∈ ps, ∃ t, p.newRawDecryptingStream ad = .ok t)
    (hnew : DecryptingStreamWrapper.new ps s readable ad = .ok w0)
    (H : StreamHistory src w0 calls w) (hn : NoData calls) (ht : ∃ c ∈ calls, RaisedTink c.2) :
    ∀ p ∈ ps, RefusesStream p ad src s := by
  obtain ⟨pre, p, old, now, alone, e1, e2, e3, e4, e5, e6, _⟩ := history_inv hopen hnew H
  have back : ∀ c ∈ alone, ∃ c' ∈ now, uptoTink c'.2 = uptoTink c.2 := by
    intro c hc
    have : (c.1, uptoTink c.2) ∈ now.map (fun c => (c.1, uptoTink c.2)) := by
      rw [e5]; exact List.mem_map.mpr ⟨c, hc, rfl⟩
    obtain ⟨c', hc', he⟩ := List.mem_map.mp this
    exact ⟨c', hc', (Prod.mk.inj he).2⟩
  have hna : NoData alone := by
    intro c hc b hb
    obtain ⟨c', hc', he⟩ := back c hc
    have := hn c' (by rw [e2]; simp [hc'])
    rw [hb] at he
    cases hx : c'.2 with
    | data b' => exact this b' hx
    | none | blocking => rw [hx] at he; cases he
    | raised x => rw [hx] at he; simp only [uptoTink] at he; split at he <;> cases he
  have hta : ∃ c ∈ alone, RaisedTink c.2 := by
    obtain ⟨c, hc, x, hx, hxt⟩ := ht
    rw [e2, List.mem_append] at hc
    rcases hc with hc | hc
    · exact absurd ⟨c, hc, x, hx, hxt⟩ e4.1.2
    · have : (c.1, uptoTink c.2) ∈ alone.map (fun c => (c.1, uptoTink c.2)) := by
        rw [← e5]; exact List.mem_map.mpr ⟨c, hc, rfl⟩
      obtain ⟨c', hc', he⟩ := List.mem_map.mp this
      have he := (Prod.mk.inj he).2
      rw [hx] at he
      simp only [uptoTink, if_pos hxt] at he
      refine ⟨c', hc', ?_⟩
      cases hy : c'.2 with
      | data b' => rw [hy] at he; cases he
      | none | blocking => rw [hy] at he; cases he
      | raised y =>
        rw [hy] at he
        simp only at he
        by_cases hyt : y.isTink = true
        · exact ⟨y, rfl, hyt⟩
        · rw [if_neg hyt] at he; cases he; exact absurd rfl hyt
  obtain ⟨t0, d, s', t, _, _, _, hcase⟩ := e6.session
  rcases hcase with ⟨_, _, _, _, hq⟩ | hm
  · intro q hqm
    rw [e1, hq hta, List.mem_append, List.mem_singleton] at hqm
    rcases hqm with hqm | rfl
    · exact e3 q hqm
    · exact ⟨alone, e6.alone, hna, hta⟩
  · -- a key has matched only after having returned bytes
    exfalso
    have key : ∀ {calls w}, StreamHistory src w0 calls w → w.matching.isSome = true →
        ∃ c ∈ calls, ∃ b, c.2 = .data b := by
      intro calls w H
      induction H with
      | start =>
        intro hm
        unfold DecryptingStreamWrapper.new at hnew
        obtain ⟨r, _, hnew⟩ := bind_ok_iff.mp hnew
        cases ps with
        | nil => cases hnew
        | cons p ps =>
          obtain ⟨t, _, hnew⟩ := bind_ok_iff.mp hnew
          cases hnew
          cases hm
      | @read calls w1 w2 size r fuel H1 hsz hmax hread ih =>
        intro hm
        cases hw : w1.matching with
        | some q =>
          obtain ⟨c, hc, hb⟩ := ih (by rw [hw]; rfl)
          exact ⟨c, by simp [hc], hb⟩
        | none =>
          unfold DecryptingStreamWrapper.read at hread
          rw [if_neg hsz, hw] at hread
          simp only at hread
          have step : ∀ (rem : List (RawStreamingAead δ ε τ)) (cur : RawStream τ × τ)
              (r0 : Rewindable σ), attempt src fuel w1.ad size cur r0 rem = some (w2, r) →
              ∃ b, r = .data b := by
            intro rem
            induction rem with
            | nil =>
              intro cur r0 h
              rw [attempt.eq_def] at h
              simp only at h
              split at h
              · cases h
              · cases h; cases hm
              · cases h; exact ⟨_, rfl⟩
              · cases h; cases hm
              · split at h <;> cases h <;> cases hm
            | cons p1 rem ih2 =>
              intro cur r0 h
              rw [attempt.eq_def] at h
              simp only at h
              split at h
              · cases h
              · cases h; cases hm
              · cases h; exact ⟨_, rfl⟩
              · cases h; cases hm
              · split at h
                · split at h
                  · cases h; cases hm
                  · split at h
                    · exact ih2 _ _ h
                    · cases h; cases hm
                · cases h; cases hm
          cases hat : w1.attempting with
          | none =>
            rw [hat] at hread
            simp only [Option.some.injEq, Prod.mk.injEq] at hread
            obtain ⟨rfl, _⟩ := hread
            rw [hw] at hm
            cases hm
          | some cur =>
            rw [hat] at hread
            obtain ⟨b, hb⟩ := step _ _ _ hread
            exact ⟨(size, r), by simp, b, hb⟩
    obtain ⟨c, hc, b, hb⟩ := key H (by rw [hm]; rfl)
    exact hn c hc b hb

/-- C54.  `read(0)` returns `b''` and changes nothing. -/
theorem C54_read_zero (src : Source σ) (fuel : Nat) (w : DecryptingStreamWrapper σ δ ε τ) :
    w.read src fuel 0 = some (w, .data []) := rfl

end Tink.Props
