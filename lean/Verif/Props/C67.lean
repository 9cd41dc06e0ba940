import Verif.Model.RandomUnix
import Verif.Props.C01
/-! # C67: the random device

In the default build `kripto_random_gen` hands out what the random device yields. `e.files name` is the device that opening `name` gives: at
each event of reading a byte, or none at the end of a file or an error. -/
namespace Kripto.Props
open Kripto.RandomUnix
open Res

/-- Creation opens the file that the environment variable names, or else `/dev/urandom`, at its start, and fails only if that cannot be
opened. -/
theorem C67_create (e : Env) :
    (∀ n, e.kriptoRandom = some n → ∀ d, e.files n = some d → kripto_random_create e = ok ⟨d, 0⟩) ∧
    (e.kriptoRandom = none → ∀ d, e.files "/dev/urandom" = some d → kripto_random_create e = ok ⟨d, 0⟩) ∧
    (∀ n, e.kriptoRandom = some n → e.files n = none → kripto_random_create e = fail) ∧
    (e.kriptoRandom = none → e.files "/dev/urandom" = none → kripto_random_create e = fail) := by
  refine ⟨fun n h d hd => ?_, fun h d hd => ?_, fun n h hd => ?_, fun h hd => ?_⟩ <;>
    (unfold kripto_random_create; simp only [h, hd])

theorem readUpTo_spec (d : Dev) (n pos : Nat) :
    (readUpTo d n pos).length ≤ n ∧ (∀ i, (h : i < (readUpTo d n pos).length) → d (pos + i) = some (readUpTo d n pos)[i]) ∧
    ((readUpTo d n pos).length < n → d (pos + (readUpTo d n pos).length) = none) := by
  induction n generalizing pos with
  | zero => exact ⟨Nat.le_refl _, fun i h => absurd h (Nat.not_lt_zero i), fun h => absurd h (Nat.lt_irrefl _)⟩
  | succ n ih =>
    cases hd : d pos with
    | none =>
      have e : readUpTo d (n + 1) pos = [] := by rw [readUpTo, hd]
      rw [e]
      exact ⟨Nat.zero_le _, fun i h => absurd h (Nat.not_lt_zero i), fun _ => hd⟩
    | some b =>
      have e : readUpTo d (n + 1) pos = b :: readUpTo d n (pos + 1) := by rw [readUpTo, hd]
      obtain ⟨h1, h2, h3⟩ := ih (pos + 1)
      rw [e]
      refine ⟨Nat.succ_le_succ h1, fun i h => ?_, fun h => ?_⟩
      · cases i with
        | zero => exact hd
        | succ i =>
          have := h2 i (Nat.lt_of_succ_lt_succ h)
          rw [show pos + (i + 1) = pos + 1 + i by omega]
          exact this
      · have := h3 (Nat.lt_of_succ_lt_succ h)
        rw [List.length_cons, show pos + ((readUpTo d n (pos + 1)).length + 1) = pos + 1 + (readUpTo d n (pos + 1)).length by omega]
        exact this

/-- A request for `len` bytes delivers `k ≤ len` of them and returns `k`: the next `k` events of the device are these bytes, they are at the
start of the buffer, no other byte of memory changes, and `k < len` only if the event after them brought none. -/
theorem C67_gen {f : File} {m : Mem} {out len : Nat} (hm : m.Has out len) :
    ∃ bytes f', kripto_random_gen (some f) m out len = ok (bytes.length, m.put out bytes, f') ∧ bytes.length ≤ len ∧
      (∀ i, (h : i < bytes.length) → f.dev (f.pos + i) = some bytes[i]) ∧ (bytes.length < len → f.dev (f.pos + bytes.length) = none) ∧
      f'.dev = f.dev ∧ f'.pos = f.pos + bytes.length + (if bytes.length < len then 1 else 0) := by
  obtain ⟨h1, h2, h3⟩ := readUpTo_spec f.dev len f.pos
  refine ⟨readUpTo f.dev len f.pos, { f with pos := if (readUpTo f.dev len f.pos).length < len then
      f.pos + (readUpTo f.dev len f.pos).length + 1 else f.pos + (readUpTo f.dev len f.pos).length }, ?_, h1, h2, h3, rfl, ?_⟩
  · simp only [kripto_random_gen]
    rw [stL_ok (hm.mono (Nat.le_refl _) (by omega)), ok_bind]
  · dsimp only
    split
    · rfl
    · rfl

/-- Any sequence of requests `(out, len)`; the results are the delivered bytes. -/
inductive Requests : File → List (Nat × Nat) → List (List Byte) → File → Prop
  | nil {f} : Requests f [] [] f
  | cons {f f' f'' m m' out len k rs bs} : kripto_random_gen (some f) m out len = ok (k, m', f') → Requests f' rs bs f'' →
      Requests f ((out, len) :: rs) (m'.get out k :: bs) f''

/-- The bytes that the events number `a` to `a + n` brought. -/
def eventBytes (d : Dev) (a n : Nat) : List Byte := (List.range n).filterMap fun i => d (a + i)

theorem eventBytes_add (d : Dev) (a n k : Nat) : eventBytes d a (n + k) = eventBytes d a n ++ eventBytes d (a + n) k := by
  simp only [eventBytes, List.range_add, List.filterMap_append, List.filterMap_map]
  congr 1
  refine congrArg (fun g => List.filterMap g (List.range k)) (funext fun i => ?_)
  simp only [Function.comp, Nat.add_assoc]

theorem eventBytes_some {d : Dev} {a : Nat} {l : List Byte} (h : ∀ i, (h : i < l.length) → d (a + i) = some l[i]) :
    eventBytes d a l.length = l := by
  induction l generalizing a with
  | nil => rfl
  | cons b l ih =>
    have e : eventBytes d a (l.length + 1) = (d a).toList ++ eventBytes d (a + 1) l.length := by
      rw [Nat.add_comm, eventBytes_add]
      congr 1
    have h0 := h 0 (by simp)
    rw [Nat.add_zero] at h0
    rw [List.length_cons, e, h0, ih]
    · rfl
    · intro i hi
      have := h (i + 1) (by simpa using hi)
      rw [show a + (i + 1) = a + 1 + i by omega] at this
      exact this

/-- After any sequence of requests the deliveries are, in order, without gap and repetition, the bytes that the device brought. -/
theorem C67_history {f f' : File} {rs : List (Nat × Nat)} {bs : List (List Byte)} (h : Requests f rs bs f') :
    f'.dev = f.dev ∧ f.pos ≤ f'.pos ∧ bs.flatten = eventBytes f.dev f.pos (f'.pos - f.pos) := by
  induction h with
  | nil => exact ⟨rfl, Nat.le_refl _, by simp [eventBytes]⟩
  | @cons f f1 f2 m m' out len k rs bs hc _ ih =>
    obtain ⟨h1, h2, h3⟩ := ih
    obtain ⟨r1, r2, r3⟩ := readUpTo_spec f.dev len f.pos
    simp only [kripto_random_gen] at hc
    obtain ⟨m1, e1, e2⟩ := bind_eq_ok.1 hc
    have hh : m.Has out (readUpTo f.dev len f.pos).length := by
      refine Classical.byContradiction fun hn => ?_
      rw [stL_ub hn] at e1; cases e1
    rw [stL_ok hh] at e1
    cases e1; cases e2
    have hp : ∀ x, x < 2 → (x = 1 → f.dev (f.pos + (readUpTo f.dev len f.pos).length) = none) →
        eventBytes f.dev f.pos ((readUpTo f.dev len f.pos).length + x) = readUpTo f.dev len f.pos := by
      intro x hx hn
      rw [eventBytes_add, eventBytes_some r2]
      match x, hx with
      | 0, _ => simp [eventBytes]
      | 1, _ => simp [eventBytes, List.range_succ, hn rfl]
    dsimp only at h1 h2 h3
    rw [Mem.get_put]
    refine ⟨h1, ?_, ?_⟩
    · split at h2 <;> omega
    · rw [List.flatten_cons, h3]
      by_cases hlt : (readUpTo f.dev len f.pos).length < len
      · rw [if_pos hlt] at h2 ⊢
        have e := eventBytes_add f.dev f.pos ((readUpTo f.dev len f.pos).length + 1) (f2.pos - (f.pos + (readUpTo f.dev len f.pos).length + 1))
        rw [hp 1 (by decide) (fun _ => r3 hlt)] at e
        rw [show f2.pos - f.pos = (readUpTo f.dev len f.pos).length + 1 + (f2.pos - (f.pos + (readUpTo f.dev len f.pos).length + 1)) by omega, e]
        rfl
      · rw [if_neg hlt] at h2 ⊢
        have e := eventBytes_add f.dev f.pos (readUpTo f.dev len f.pos).length (f2.pos - (f.pos + (readUpTo f.dev len f.pos).length))
        have := hp 0 (by decide) (fun h => absurd h (by decide))
        rw [Nat.add_zero] at this
        rw [this] at e
        rw [show f2.pos - f.pos = (readUpTo f.dev len f.pos).length + (f2.pos - (f.pos + (readUpTo f.dev len f.pos).length)) by omega, e]

/-- A device that never fails: every request is served in full. -/
theorem C67_endless {f : File} (hd : ∀ i, f.dev i ≠ none) {m : Mem} {out len : Nat} (hm : m.Has out len) :
    ∃ bytes f', kripto_random_gen (some f) m out len = ok (len, m.put out bytes, f') ∧ bytes.length = len ∧
      ∀ i, (h : i < bytes.length) → f.dev (f.pos + i) = some bytes[i] := by
  obtain ⟨bytes, f', h1, h2, h3, h4, _⟩ := C67_gen (f := f) hm
  have e : bytes.length = len := by
    rcases Nat.lt_or_ge bytes.length len with h | h
    · exact absurd (h4 h) (hd _)
    · omega
  rw [e] at h1
  exact ⟨bytes, f', h1, e, h3⟩

/-- Whoever sets the environment chooses the "random" bytes: for every string there is an environment in which it is what the
generator delivers. -/
theorem C67_environment_decides (bytes : List Byte) : ∃ e f, e.kriptoRandom ≠ none ∧ kripto_random_create e = ok f ∧
    ∀ (m : Mem) (out : Nat), m.Has out bytes.length → ∃ f', kripto_random_gen (some f) m out bytes.length = ok (bytes.length, m.put out bytes, f') := by
  refine ⟨⟨some "file", fun _ => some fun i => bytes[i]?⟩, ⟨fun i => bytes[i]?, 0⟩, by simp, rfl, fun m out hm => ?_⟩
  obtain ⟨l, f', h1, h2, h3, h4, _⟩ := C67_gen (f := ⟨fun i => bytes[i]?, 0⟩) hm
  have hl : l.length = bytes.length := by
    rcases Nat.lt_or_ge l.length bytes.length with h | h
    · have := h4 h
      simp at this; omega
    · omega
  have e : l = bytes := by
    refine List.ext_getElem hl fun i hi hi' => ?_
    have := h3 i hi
    simp only [Nat.zero_add, List.getElem?_eq_getElem hi'] at this
    exact (Option.some.inj this).symm
  rw [e] at h1
  exact ⟨f', h1⟩

/-- At the end of the file nothing is delivered, only the returned number tells: the buffer keeps its contents. -/
theorem C67_end {f : File} (hd : f.dev f.pos = none) {m : Mem} {out len : Nat} (hm : m.Has out len) :
    ∃ f', kripto_random_gen (some f) m out len = ok (0, m, f') := by
  obtain ⟨l, f', h1, h2, h3, h4, _⟩ := C67_gen (f := f) hm
  have e : l = [] := by
    cases l with
    | nil => rfl
    | cons b l =>
      have := h3 0 (by simp)
      rw [Nat.add_zero, hd] at this
      cases this
  subst e
  rw [Mem.put_nil] at h1
  exact ⟨f', h1⟩

/-- No object. -/
theorem C67_null (m : Mem) (out len : Nat) : kripto_random_gen none m out len = abort := rfl

/-- A device that yields 5, 6, 7 and then nothing. -/
def exDev : Dev := fun i => [(5 : Byte), 6, 7][i]?

example : kripto_random_create ⟨none, fun n => if n = "/dev/urandom" then some exDev else none⟩ = ok ⟨exDev, 0⟩ := rfl
example : (kripto_random_gen (some ⟨exDev, 0⟩) exMem 100 2 >>= fun r => ok (r.1, r.2.1.get 99 4, r.2.2.pos)) = ok (2, [99, 5, 6, 102], 2) := by decide
example : (kripto_random_gen (some ⟨exDev, 2⟩) exMem 100 2 >>= fun r => ok (r.1, r.2.1.get 99 4, r.2.2.pos)) = ok (1, [99, 7, 101, 102], 4) := by decide
/-- a history of two requests, the second of which is not served in full -/
example : ∃ f', Requests ⟨exDev, 0⟩ [(100, 2), (100, 2)] [[5, 6], [7]] f' := by
  have e1 : kripto_random_gen (some ⟨exDev, 0⟩) exMem 100 2 = ok (2, exMem.put 100 [5, 6], ⟨exDev, 2⟩) := by
    rw [kripto_random_gen, show readUpTo exDev 2 0 = [5, 6] from rfl, stL_ok (exMem_has _ _)]; rfl
  have e2 : kripto_random_gen (some ⟨exDev, 2⟩) exMem 100 2 = ok (1, exMem.put 100 [7], ⟨exDev, 4⟩) := by
    rw [kripto_random_gen, show readUpTo exDev 2 2 = [7] from rfl, stL_ok (exMem_has _ _)]; rfl
  exact ⟨_, .cons e1 (.cons e2 .nil)⟩

end Kripto.Props
