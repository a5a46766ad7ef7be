import Verif.Props.Piped
import Verif.Props.User
/-!
# C88: a reader is asked for no more than the record

What a `BufReader` is left as by a call, for every reader: also one that fails, or goes on after an end of file.
-/
namespace Perf
open ParserM
variable {O : Type}

/-! ## Taking bytes from a reader -/

/-- Take `n` bytes from a reader whose buffer is empty: read only while something is missing, stop at an error or an end of file. -/
def BufReader.pull : Nat → List ReadEvent → BufReader
  | 0, es => ⟨[], es⟩
  | _ + 1, [] => ⟨[], []⟩
  | _ + 1, .error _ :: es => ⟨[], es⟩
  | n + 1, .data bs :: es =>
    if bs = [] then ⟨[], es⟩
    else if n + 1 ≤ bs.length then ⟨bs.drop (n + 1), es⟩
    else BufReader.pull (n + 1 - bs.length) es

/-- Take `n` bytes, first those in the buffer. -/
def BufReader.taken (r : BufReader) (n : Nat) : BufReader :=
  if n ≤ r.buf.length then ⟨r.buf.drop n, r.script⟩ else BufReader.pull (n - r.buf.length) r.script

/-- The bytes to come before an error or an end of file. -/
def BufReader.all (r : BufReader) : List Byte := r.buf ++ scriptBytes r.script

/-- How many bytes `parse_record` has to look at: the header, and then as many as it says. -/
def recordNeed (cfg : ParseConfig) (bs : List Byte) : Nat := if bs.length < 8 then 8 else max 8 (sizeField cfg bs)

namespace BufReader

theorem pull_data {n : Nat} {bs : List Byte} {es : List ReadEvent} (h0 : 0 < n) (hb : bs ≠ []) :
    pull n (.data bs :: es) = taken ⟨bs, es⟩ n := by
  obtain ⟨n, rfl⟩ := Nat.exists_eq_succ_of_ne_zero (Nat.ne_of_gt h0)
  unfold pull taken
  rw [if_neg hb]

/-- Whatever is asked for beyond what there is makes no difference. -/
theorem pull_over : ∀ (es : List ReadEvent) (n m : Nat), (scriptBytes es).length < n → (scriptBytes es).length < m → pull n es = pull m es := by
  intro es
  induction es with
  | nil => intro n m hn hm; cases n <;> cases m <;> first | rfl | (simp [scriptBytes] at hn hm)
  | cons e es ih =>
    intro n m hn hm
    cases e with
    | error e => cases n <;> cases m <;> first | rfl | (simp [scriptBytes] at hn hm)
    | data bs =>
      cases bs with
      | nil => cases n <;> cases m <;> first | rfl | (simp [scriptBytes] at hn hm)
      | cons b bs =>
        simp only [scriptBytes, List.length_append] at hn hm
        rw [pull_data (by omega) (by simp), pull_data (by omega) (by simp)]
        unfold taken
        dsimp only
        rw [if_neg (by omega), if_neg (by omega)]
        exact ih _ _ (by omega) (by omega)

theorem taken_over {r : BufReader} {n m : Nat} (hn : r.all.length < n) (hm : r.all.length < m) : r.taken n = r.taken m := by
  unfold all at hn hm
  rw [List.length_append] at hn hm
  unfold taken
  rw [if_neg (by omega), if_neg (by omega)]
  exact pull_over _ _ _ (by omega) (by omega)

theorem pull_add : ∀ (es : List ReadEvent) (a b : Nat), a ≤ (scriptBytes es).length → pull (a + b) es = (pull a es).taken b ∧
    (pull a es).all = (scriptBytes es).drop a := by
  intro es
  induction es with
  | nil =>
    intro a b ha
    obtain rfl : a = 0 := by simp [scriptBytes] at ha; exact ha
    refine ⟨?_, rfl⟩
    rw [Nat.zero_add]
    cases b <;> rfl
  | cons e es ih =>
    intro a b ha
    by_cases h0 : a = 0
    · subst h0
      refine ⟨?_, rfl⟩
      rw [Nat.zero_add]
      cases b <;> rfl
    cases e with
    | error e => simp [scriptBytes] at ha; exact absurd ha h0
    | data bs =>
      cases bs with
      | nil => simp [scriptBytes] at ha; exact absurd ha h0
      | cons c bs =>
        simp only [scriptBytes, List.length_append] at ha
        rw [pull_data (by omega) (by simp), pull_data (by omega) (by simp)]
        generalize hd : c :: bs = d at ha ⊢
        have hs : scriptBytes (.data d :: es) = d ++ scriptBytes es := by rw [← hd]; rfl
        rw [hs]
        by_cases hle : a ≤ d.length
        · have e1 : taken ⟨d, es⟩ a = ⟨d.drop a, es⟩ := if_pos hle
          rw [e1]
          refine ⟨?_, ?_⟩
          · unfold taken
            simp only [List.length_drop, List.drop_drop]
            by_cases h2 : a + b ≤ d.length
            · rw [if_pos h2, if_pos (by omega)]
            · rw [if_neg h2, if_neg (by omega), show a + b - d.length = b - (d.length - a) by omega]
          · show d.drop a ++ scriptBytes es = _
            rw [List.drop_append_of_le_length hle]
        · have e1 : taken ⟨d, es⟩ a = pull (a - d.length) es := if_neg hle
          have e2 : taken ⟨d, es⟩ (a + b) = pull (a + b - d.length) es := if_neg (by show ¬ _ ≤ d.length; omega)
          have := ih (a - d.length) b (by omega)
          rw [e1, e2, show a + b - d.length = a - d.length + b by omega]
          refine ⟨this.1, ?_⟩
          rw [this.2, List.drop_append, List.drop_eq_nil_of_le (show d.length ≤ a by omega), List.nil_append]

theorem taken_add {r : BufReader} {a : Nat} (h : a ≤ r.all.length) (b : Nat) : r.taken (a + b) = (r.taken a).taken b := by
  unfold all at h
  rw [List.length_append] at h
  by_cases hle : a ≤ r.buf.length
  · have e1 : r.taken a = ⟨r.buf.drop a, r.script⟩ := if_pos hle
    rw [e1]
    unfold taken
    simp only [List.length_drop, List.drop_drop]
    by_cases h2 : a + b ≤ r.buf.length
    · rw [if_pos h2, if_pos (by omega)]
    · rw [if_neg h2, if_neg (by omega), show a + b - r.buf.length = b - (r.buf.length - a) by omega]
  · have e1 : r.taken a = pull (a - r.buf.length) r.script := if_neg hle
    have e2 : r.taken (a + b) = pull (a + b - r.buf.length) r.script := if_neg (by omega)
    rw [e1, e2, show a + b - r.buf.length = a - r.buf.length + b by omega]
    exact (pull_add r.script _ b (by omega)).1

theorem taken_all {r : BufReader} {a : Nat} (h : a ≤ r.all.length) : (r.taken a).all = r.all.drop a := by
  unfold all at h
  rw [List.length_append] at h
  by_cases hle : a ≤ r.buf.length
  · have e1 : r.taken a = ⟨r.buf.drop a, r.script⟩ := if_pos hle
    rw [e1]
    show r.buf.drop a ++ _ = (r.buf ++ _).drop a
    rw [List.drop_append_of_le_length hle]
  · have e1 : r.taken a = pull (a - r.buf.length) r.script := if_neg hle
    rw [e1, (pull_add r.script _ 0 (by omega)).2]
    unfold all
    rw [List.drop_append, List.drop_eq_nil_of_le (show r.buf.length ≤ a by omega), List.nil_append]

@[simp] theorem taken_zero (r : BufReader) : r.taken 0 = r := if_pos (Nat.zero_le _)

/-- `chunk` looks for one byte. -/
theorem chunk_step (r : BufReader) : match ParseBuf.chunk r with
    | (.error e, r') => (∃ x, e = .err x) ∧ r.all = [] ∧ ∀ n, 0 < n → r.taken n = r'
    | (.ok c, r') => c.data ≠ [] ∧ r'.buf = c.data ∧ r'.all = r.all ∧ ParseBuf.steps r' = ParseBuf.steps r ∧ ∀ n, 0 < n → r.taken n = r'.taken n := by
  obtain ⟨buf, es⟩ := r
  cases buf with
  | cons b bs => exact ⟨by simp, rfl, rfl, rfl, fun _ _ => rfl⟩
  | nil =>
    have ht : ∀ n, 0 < n → taken ⟨[], es⟩ n = pull n es := fun n hn => if_neg (by simp; omega)
    cases es with
    | nil => exact ⟨⟨_, rfl⟩, rfl, fun n hn => by rw [ht n hn]; cases n <;> rfl⟩
    | cons e es =>
      cases e with
      | error e => exact ⟨⟨_, rfl⟩, rfl, fun n hn => by rw [ht n hn]; cases n <;> first | rfl | (simp at hn)⟩
      | data bs =>
        cases bs with
        | nil => exact ⟨⟨_, rfl⟩, rfl, fun n hn => by rw [ht n hn]; cases n <;> first | rfl | (simp at hn)⟩
        | cons b bs =>
          refine ⟨by simp, rfl, rfl, ?_, fun n hn => ?_⟩
          · show (b :: bs).length + ReadEvent.bytes es = ([] : List Byte).length + ((b :: bs).length + ReadEvent.bytes es)
            simp
          · rw [ht n hn, pull_data hn (by simp)]

theorem advance_step (r : BufReader) {k : Nat} (h : k ≤ r.buf.length) : ParseBuf.advance r k = some (r.taken k) := by
  show some _ = _
  unfold taken
  rw [if_pos h]

theorem steps_taken (r : BufReader) {k : Nat} (h : k ≤ r.buf.length) : ParseBuf.steps (r.taken k) + k = ParseBuf.steps r := by
  unfold taken
  rw [if_pos h]
  show (r.buf.drop k).length + ReadEvent.bytes r.script + k = r.buf.length + ReadEvent.bytes r.script
  rw [List.length_drop]
  omega

end BufReader

/-! ## The parser's loops -/

/-- The call takes `n` bytes from the reader, and succeeds exactly if it gets them. -/
structure Pulls (n : Nat) {α : Type} (m : P BufReader α) : Prop where
  buf : ∀ p, (m p).st.data.buf = p.data.buf.taken n
  cfg : ∀ p, (m p).st.config = p.config
  ok : ∀ p, n ≤ p.data.buf.all.length → ∃ a, (m p).res = .ok a
  err : ∀ p, p.data.buf.all.length < n → ∃ e, (m p).res = .error e

/-- The call does not touch the reader. -/
def Still {α : Type} (m : P BufReader α) : Prop := ∀ p, (m p).st = p

theorem Still.bind {α γ : Type} {m : P BufReader α} {k : α → P BufReader γ} (hm : Still m) (hk : ∀ a, Still (k a)) : Still (m >>= k) := by
  intro p
  rcases h : (m p : Out BufReader α) with ⟨r, q, l⟩
  have hq : q = p := by have := hm p; rw [h] at this; exact this
  subst hq
  cases r with
  | error e => rw [P.bind_err h]
  | ok a => rw [P.bind_ok h]; exact hk a q

theorem Still.pure {α : Type} (a : α) : Still (Pure.pure a : P BufReader α) := fun _ => rfl
theorem Still.fail {α : Type} (e : ParseError) : Still (P.fail e : P BufReader α) := fun _ => rfl
theorem Still.onChild {α δ : Type} (c : Parser δ) (m : P δ α) : Still (P.onChild c m : P BufReader (α × Parser δ)) := by
  intro p
  unfold P.onChild
  dsimp only
  cases (m c).res <;> rfl
theorem Still.recordImpl {γ : Type} [ParseBuf γ] (c : Parser γ) (v : Visitor Cow O) (md : Metadata) :
    Still (P.recordImpl c v md : P BufReader O) := fun _ => P.recordImpl_st ..

/-- State after a call followed by one that leaves the reader alone. -/
theorem P.bind_still {α γ : Type} {m : P BufReader α} {k : α → P BufReader γ} (hk : ∀ a, Still (k a)) (p : Parser BufReader) :
    ((m >>= k) p).st = (m p).st := by
  rcases h : (m p : Out BufReader α) with ⟨r, q, l⟩
  cases r with
  | error e => rw [P.bind_err h]
  | ok a => rw [P.bind_ok h]; exact hk a q

/-- One after the other. -/
theorem Pulls.bind {α γ : Type} {a b : Nat} {m : P BufReader α} {k : α → P BufReader γ} (hm : Pulls a m) (hk : ∀ x, Pulls b (k x)) :
    Pulls (a + b) (m >>= k) := by
  have key : ∀ p : Parser BufReader,
      (a ≤ p.data.buf.all.length → ∃ x q l, m p = ⟨.ok x, q, l⟩ ∧ q.data.buf = p.data.buf.taken a ∧ q.config = p.config ∧
        q.data.buf.all.length = p.data.buf.all.length - a) ∧
      (p.data.buf.all.length < a → ∃ e q l, m p = ⟨.error e, q, l⟩ ∧ q.data.buf = p.data.buf.taken a ∧ q.config = p.config) := by
    intro p
    have h1 := hm.buf p
    have h2 := hm.cfg p
    refine ⟨fun h => ?_, fun h => ?_⟩
    · obtain ⟨x, hx⟩ := hm.ok p h
      refine ⟨x, _, _, P.run_eq _ hx, h1, h2, ?_⟩
      rw [h1, BufReader.taken_all h, List.length_drop]
    · obtain ⟨e, he⟩ := hm.err p h
      exact ⟨e, _, _, P.run_eq _ he, h1, h2⟩
  refine ⟨fun p => ?_, fun p => ?_, fun p hn => ?_, fun p hn => ?_⟩
  · rcases Nat.lt_or_ge p.data.buf.all.length a with h | h
    · obtain ⟨e, q, l, h1, h2, _⟩ := (key p).2 h
      rw [P.bind_err h1]
      show q.data.buf = _
      rw [h2]
      exact BufReader.taken_over h (by omega)
    · obtain ⟨x, q, l, h1, h2, _, _⟩ := (key p).1 h
      rw [P.bind_ok h1]
      show (k x q).st.data.buf = _
      rw [(hk x).buf q, h2, BufReader.taken_add h]
  · rcases Nat.lt_or_ge p.data.buf.all.length a with h | h
    · obtain ⟨e, q, l, h1, _, h2⟩ := (key p).2 h
      rw [P.bind_err h1]
      exact h2
    · obtain ⟨x, q, l, h1, _, h2, _⟩ := (key p).1 h
      rw [P.bind_ok h1]
      exact ((hk x).cfg q).trans h2
  · obtain ⟨x, q, l, h1, _, _, h2⟩ := (key p).1 (by omega)
    rw [P.bind_ok h1]
    exact (hk x).ok q (by omega)
  · rcases Nat.lt_or_ge p.data.buf.all.length a with h | h
    · obtain ⟨e, q, l, h1, _, _⟩ := (key p).2 h
      rw [P.bind_err h1]
      exact ⟨e, rfl⟩
    · obtain ⟨x, q, l, h1, _, _, h2⟩ := (key p).1 h
      rw [P.bind_ok h1]
      exact (hk x).err q (by omega)

/-- Followed by something that always succeeds and leaves the reader alone. -/
theorem Pulls.map {α γ : Type} {a : Nat} {m : P BufReader α} {k : α → P BufReader γ} (hm : Pulls a m)
    (hk : ∀ x q, ∃ y, (k x q).res = .ok y ∧ (k x q).st = q) : Pulls a (m >>= k) :=
  hm.bind (b := 0) fun x => ⟨fun p => by obtain ⟨y, _, h⟩ := hk x p; rw [h, BufReader.taken_zero],
    fun p => by obtain ⟨y, _, h⟩ := hk x p; rw [h], fun p _ => by obtain ⟨y, h, _⟩ := hk x p; exact ⟨y, h⟩, fun p h => absurd h (Nat.not_lt_zero _)⟩

/-- One turn of a loop that still needs `n` bytes: the reader has nothing, or some portion, of which `min` is taken. -/
theorem P.chunk_turn (p : Parser BufReader) {n : Nat} (hn : 0 < n) :
    (p.data.buf.all = [] ∧ ∃ x q, P.chunk p = ⟨.error (.err x), q, []⟩ ∧ q.config = p.config ∧ q.data.buf = p.data.buf.taken n) ∨
    ∃ c q q', P.chunk p = ⟨.ok c, q, []⟩ ∧ c.data ≠ [] ∧ q.config = p.config ∧ q.data.buf.buf = c.data ∧ q.data.buf.all = p.data.buf.all ∧
      ParseBuf.steps q.data = ParseBuf.steps p.data ∧ (∀ m, 0 < m → q.data.buf.taken m = p.data.buf.taken m) ∧
      P.advance (min c.data.length n) q = ⟨.ok (), q', []⟩ ∧ q'.config = p.config ∧
      ParseBuf.steps q'.data + min c.data.length n = ParseBuf.steps p.data ∧ min c.data.length n ≤ p.data.buf.all.length ∧
      q'.data.buf = p.data.buf.taken (min c.data.length n) := by
  have h := BufReader.chunk_step p.data.buf
  rcases hc : ParseBuf.chunk p.data.buf with ⟨r, b⟩
  rw [hc] at h
  have hch : P.chunk p = ⟨r, { p with data := ⟨b, p.data.offset⟩ }, []⟩ := by
    show Out.mk (ParseBuf.chunk p.data.buf).1 { p with data := { p.data with buf := (ParseBuf.chunk p.data.buf).2 } } [] = _
    rw [hc]
  cases r with
  | error e =>
    obtain ⟨⟨x, rfl⟩, h1, h2⟩ := h
    exact .inl ⟨h1, x, _, hch, rfl, (h2 n hn).symm⟩
  | ok c =>
    obtain ⟨h1, h2, h3, h4, h5⟩ := h
    have hpos : 0 < c.data.length := List.length_pos_iff.mpr h1
    have hle : min c.data.length n ≤ b.buf.length := by rw [h2]; omega
    have hadv : P.advance (min c.data.length n) { p with data := ⟨b, p.data.offset⟩ } =
        ⟨.ok (), { p with data := ⟨b.taken (min c.data.length n), p.data.offset + min c.data.length n⟩ }, []⟩ := by
      have ha : ParseBuf.advance (Tracking.mk b p.data.offset) (min c.data.length n) =
          some ⟨b.taken (min c.data.length n), p.data.offset + min c.data.length n⟩ := by
        show (ParseBuf.advance b (min c.data.length n)).map _ = _
        rw [BufReader.advance_step b hle]
        rfl
      unfold P.advance
      simp only [ha]
    refine .inr ⟨c, _, _, hch, h1, rfl, h2, h3, h4, fun m hm => (h5 m hm).symm, hadv, rfl, ?_, ?_, ?_⟩
    · show ParseBuf.steps (b.taken _) + _ = ParseBuf.steps p.data.buf
      rw [BufReader.steps_taken b hle, h4]
    · rw [← h3]
      unfold BufReader.all
      rw [List.length_append, h2]
      omega
    · exact (h5 _ (by omega)).symm

theorem BufReader.taken_left {r : BufReader} {k n : Nat} (hk : k ≤ r.all.length) (hn : k ≤ n) : (r.taken k).taken (n - k) = r.taken n := by
  rw [← BufReader.taken_add hk, show k + (n - k) = n by omega]

/-- The outcome of a loop over `n` bytes. -/
structure Pulled (n : Nat) {α : Type} (p : Parser BufReader) (o : Out BufReader α) : Prop where
  buf : o.st.data.buf = p.data.buf.taken n
  cfg : o.st.config = p.config
  ok : n ≤ p.data.buf.all.length → ∃ a, o.res = .ok a
  err : p.data.buf.all.length < n → ∃ e, o.res = .error e

theorem Pulled.nothing {α : Type} {p : Parser BufReader} {a : α} {l : List Nat} : Pulled 0 p ⟨.ok a, p, l⟩ :=
  ⟨(BufReader.taken_zero _).symm, rfl, fun _ => ⟨a, rfl⟩, fun h => absurd h (Nat.not_lt_zero _)⟩

theorem Pulled.none {α : Type} {n : Nat} (hn : 0 < n) {p q : Parser BufReader} {e : Fault} {l : List Nat} (h : p.data.buf.all = [])
    (hq : q.data.buf = p.data.buf.taken n) (hc : q.config = p.config) : Pulled n p (⟨.error e, q, l⟩ : Out BufReader α) :=
  ⟨hq, hc, fun h' => by rw [h] at h'; simp at h'; omega, fun _ => ⟨e, rfl⟩⟩

theorem Pulled.some {α : Type} {n k : Nat} {p q : Parser BufReader} {o : Out BufReader α} (hk : k ≤ p.data.buf.all.length) (hn : k ≤ n)
    (hq : q.data.buf = p.data.buf.taken k) (hc : q.config = p.config) (h : Pulled (n - k) q o) {l : List Nat} :
    Pulled n p ⟨o.res, o.st, l⟩ := by
  have hl : q.data.buf.all.length = p.data.buf.all.length - k := by rw [hq, BufReader.taken_all hk, List.length_drop]
  refine ⟨?_, h.cfg.trans hc, fun h' => h.ok (by omega), fun h' => h.err (by omega)⟩
  show o.st.data.buf = _
  rw [h.buf, hq, BufReader.taken_left hk hn]

theorem pulled_toSliceLoop : ∀ (fuel n : Nat) (w : List Byte) (p : Parser BufReader), ParseBuf.steps p.data < fuel →
    Pulled n p (P.toSliceLoop fuel n w p) := by
  intro fuel
  induction fuel with
  | zero => intro n w p h; omega
  | succ fuel ih =>
    intro n w p h
    unfold P.toSliceLoop
    by_cases h0 : n = 0
    · rw [if_pos h0]; subst h0; exact Pulled.nothing
    rw [if_neg h0]
    rcases P.chunk_turn p (n := n) (by omega) with ⟨he, x, q, hc, h2, h3⟩ | ⟨c, q, q', hc, hne, hq, -, -, -, -, ha, hq', hs, hk, hb⟩
    · rw [P.bind_err hc]
      exact Pulled.none (by omega) he h3 h2
    · rw [P.bind_ok hc]
      rw [P.bind_ok ha]
      have hpos := List.length_pos_iff.mpr hne
      exact Pulled.some hk (Nat.min_le_right ..) hb hq' (ih _ _ q' (by omega))

theorem pulled_cursorLoop : ∀ (fuel n : Nat) (cs : List Chunk) (p : Parser BufReader), ParseBuf.steps p.data < fuel →
    Pulled n p (P.cursorLoop fuel n cs p) := by
  intro fuel
  induction fuel with
  | zero => intro n cs p h; omega
  | succ fuel ih =>
    intro n cs p h
    unfold P.cursorLoop
    by_cases h0 : n = 0
    · rw [if_pos h0]; subst h0; exact Pulled.nothing
    rw [if_neg h0]
    rcases P.chunk_turn p (n := n) (by omega) with ⟨he, x, q, hc, h2, h3⟩ | ⟨c, q, q', hc, hne, hq, -, -, -, -, ha, hq', hs, hk, hb⟩
    · rw [P.bind_err hc]
      exact Pulled.none (by omega) he h3 h2
    · rw [P.bind_ok hc]
      have hl : (c.truncate n).data.length = min c.data.length n := by
        unfold Chunk.truncate
        split
        · omega
        · simp only [List.length_take]; omega
      have hp : ∃ x l, (P.pushChunk (c.truncate n) cs : P BufReader _) q = ⟨.ok x, q, l⟩ := by
        unfold P.pushChunk P.toCow
        split
        · cases (c.truncate n).loc <;> exact ⟨_, _, rfl⟩
        · exact ⟨_, _, rfl⟩
      obtain ⟨x, l, hp⟩ := hp
      rw [P.bind_ok hp, hl, P.bind_ok ha]
      have hpos := List.length_pos_iff.mpr hne
      exact Pulled.some hk (Nat.min_le_right ..) hb hq' (ih _ _ q' (by omega))

theorem Pulls.of {n : Nat} {α : Type} {m : P BufReader α} (h : ∀ p, Pulled n p (m p)) : Pulls n m :=
  ⟨fun p => (h p).buf, fun p => (h p).cfg, fun p => (h p).ok, fun p => (h p).err⟩

theorem Pulls.toSlice (n : Nat) : Pulls n (P.toSlice n : P BufReader (List Byte)) := by
  refine Pulls.of fun p => ?_
  exact pulled_toSliceLoop _ n [] p (Nat.lt_succ_self _)

theorem Pulls.newCursor (n : Nat) : Pulls n (P.newCursor n : P BufReader Cursor) := by
  refine Pulls.of fun p => ?_
  have h : Pulls n (P.fuel >>= fun k => P.cursorLoop k n [] : P BufReader (List Chunk)) :=
    Pulls.of fun p => pulled_cursorLoop _ n [] p (Nat.lt_succ_self _)
  have h' := h.map (k := fun cs => (Pure.pure { chunks := cs.reverse, offset := 0, len := n } : P BufReader Cursor)) fun _ _ => ⟨_, rfl, rfl⟩
  have e : ∀ p, P.newCursor n p = ((P.fuel >>= fun k => P.cursorLoop k n []) >>= fun cs =>
      (Pure.pure { chunks := cs.reverse, offset := 0, len := n } : P BufReader Cursor)) p := by
    intro p
    rw [P.bind_assoc_run]
    rfl
  rw [e]
  exact ⟨h'.buf p, h'.cfg p, h'.ok p, h'.err p⟩

theorem Pulls.splitAt (n : Nat) : Pulls n (P.splitAt n : P BufReader (Parser Cursor)) :=
  (Pulls.newCursor n).map fun _ _ => ⟨_, rfl, rfl⟩

theorem Pulls.array {n : Nat} (hn : 0 < n) : Pulls n (P.array n : P BufReader (List Byte)) := by
  refine Pulls.of fun p => ?_
  unfold P.array
  rcases P.chunk_turn p hn with ⟨he, x, q, hc, h2, h3⟩ | ⟨c, q, q', hc, hne, hq, hb', hall, hst, hm, ha, hq', hs, hk, hb⟩
  · rw [P.bind_err hc]
    exact Pulled.none hn he h3 h2
  · rw [P.bind_ok hc]
    split
    · next hlt =>
      have h := Pulls.toSlice n
      exact ⟨(h.buf q).trans (hm n hn), (h.cfg q).trans hq, fun h' => h.ok q (by rw [hall]; exact h'), fun h' => h.err q (by rw [hall]; exact h')⟩
    · next hge =>
      rw [show min c.data.length n = n by omega] at ha hb hk
      rw [P.bind_ok ha]
      exact ⟨hb, hq', fun _ => ⟨_, rfl⟩, fun h' => absurd h' (by omega)⟩

theorem Pulls.u32 : Pulls 4 (parseU32 : P BufReader U32) := (Pulls.array (by decide)).map fun _ _ => ⟨_, rfl, rfl⟩
theorem Pulls.u16 : Pulls 2 (parseU16 : P BufReader U16) := (Pulls.array (by decide)).map fun _ _ => ⟨_, rfl, rfl⟩
theorem Pulls.header : Pulls 8 (parseHeader : P BufReader Header) :=
  Pulls.u32.bind (b := 4) fun _ => Pulls.u16.bind (b := 2) fun _ => Pulls.u16.map fun _ _ => ⟨_, rfl, rfl⟩

/-! ## Records -/

/-- The header says how much is needed after it. -/
theorem P.metadataWithHeader_taken (p : Parser BufReader) (h : Header) :
    ((P.metadataWithHeader h : P BufReader _) p).st.data.buf = p.data.buf.taken (h.size.toNat - 8) ∧
    ((P.metadataWithHeader h : P BufReader _) p).st.config = p.config := by
  unfold P.metadataWithHeader
  split
  · next h8 =>
    rw [show h.size.toNat - 8 = 0 by omega, BufReader.taken_zero]
    exact ⟨rfl, rfl⟩
  · have hk : ∀ rp : Parser Cursor, Still (if h.type_.toNat = 1 ∨ h.type_.toNat = 9 then
        (Pure.pure (rp, Metadata.new h SampleId.default) : P BufReader (Parser Cursor × Metadata))
      else if h.size.toNat - 8 < SampleId.estimateLen rp.config then
        P.fail (.custom .invalidRecord ("config has sample_id_all bit set but record does not have enough data " ++
          "to store the sample_id"))
      else do
        let remainingLen := h.size.toNat - 8 - SampleId.estimateLen rp.config
        let (p, rp) ← P.onChild rp (P.splitAt remainingLen)
        let (sampleId, _) ← P.onChild rp parseSampleId
        pure (p, Metadata.new h sampleId)) := by
      intro rp
      split
      · exact Still.pure _
      split
      · exact Still.fail _
      refine Still.bind (Still.onChild _ _) fun x => ?_
      exact Still.bind (Still.onChild _ _) fun y => Still.pure _
    have := P.bind_still (m := (P.splitAt (h.size.toNat - 8) : P BufReader _)) hk p
    refine ⟨?_, ?_⟩
    · exact (congrArg (fun q => q.data.buf) this).trans ((Pulls.splitAt _).buf p)
    · exact (congrArg (fun q => q.config) this).trans ((Pulls.splitAt _).cfg p)

theorem P.recordWithHeader_left (v : Visitor Cow O) (h : Header) (p : Parser BufReader) :
    (P.recordWithHeader v h p).st = ((P.metadataWithHeader h : P BufReader _) p).st := by
  refine P.bind_still (fun x => ?_) p
  rcases x with ⟨c, md⟩
  show Still (match c.data.buf.asSlice with
    | some data => P.recordImpl (Parser.new data c.config) v md
    | none => P.recordImpl c v md)
  split <;> exact Still.recordImpl _ v md

/-- What a `BufReader` has to deliver. -/
theorem BufReader.rep (r : BufReader) : BufReader.Rep r ⟨r.all, .temp, scriptFin r.script⟩ :=
  ⟨_, BufReader.script_spec r.script, rfl⟩

theorem RepP.bufReader (p : Parser BufReader) (hw : p.config.Wf) :
    RepP p ⟨⟨p.data.buf.all, .temp, scriptFin p.data.buf.script⟩, p.data.offset, p.config⟩ :=
  ⟨p.data.buf.rep, rfl, rfl, hw⟩

theorem P.header_then {α : Type} (k : Header → P BufReader α) (p : Parser BufReader) (hw : p.config.Wf)
    (hk : ∀ h q, (k h q).st.data.buf = q.data.buf.taken (h.size.toNat - 8) ∧ (k h q).st.config = q.config) :
    ((parseHeader >>= k) p).st.data.buf = p.data.buf.taken (recordNeed p.config p.data.buf.all) ∧ ((parseHeader >>= k) p).st.config = p.config := by
  have hb := Pulls.header.buf p
  have hc := Pulls.header.cfg p
  unfold recordNeed
  split
  · next h8 =>
    obtain ⟨e, he⟩ := Pulls.header.err p h8
    rw [P.bind_err (P.run_eq _ he)]
    exact ⟨hb, hc⟩
  · next h8 =>
    have h8 : 8 ≤ p.data.buf.all.length := by omega
    obtain ⟨h, hh⟩ := Pulls.header.ok p h8
    have hs : h.size.toNat = sizeField p.config p.data.buf.all := by
      obtain ⟨q, hq, _⟩ := P.header_run (RepP.bufReader p hw) h8
      rw [hq] at hh
      cases hh
      rfl
    rw [P.bind_ok (P.run_eq _ hh)]
    obtain ⟨h1, h2⟩ := hk h ((parseHeader : P BufReader Header) p).st
    refine ⟨?_, h2.trans hc⟩
    refine h1.trans ?_
    rw [hb, ← BufReader.taken_add h8, ← hs, show 8 + (h.size.toNat - 8) = max 8 h.size.toNat by omega]

/-! ## The property -/

/-- The bytes that `read` calls delivered. -/
def delivered : List ReadEvent → List Byte
  | [] => []
  | .data bs :: es => bs ++ delivered es
  | .error _ :: es => delivered es

/-- A `read` call that brought something. -/
def ReadEvent.Brings (e : ReadEvent) : Prop := ∃ b bs, e = .data (b :: bs)

theorem BufReader.pull_reads : ∀ (es : List ReadEvent) (n : Nat), ∃ done, es = done ++ (pull n es).script ∧
    (pull n es).buf = (delivered done).drop n ∧
    (∀ i < done.length, (delivered (done.take i)).length < n ∧ ∀ e ∈ done.take i, e.Brings) ∧
    ((∀ e ∈ done, e.Brings) → (pull n es).script ≠ [] → n ≤ (delivered done).length) := by
  intro es
  induction es with
  | nil =>
    intro n
    cases n with
    | zero => exact ⟨[], rfl, rfl, nofun, fun _ _ => Nat.zero_le _⟩
    | succ n => exact ⟨[], rfl, rfl, nofun, fun _ h => absurd rfl h⟩
  | cons e es ih =>
    intro n
    cases n with
    | zero => exact ⟨[], rfl, rfl, nofun, fun _ _ => Nat.zero_le _⟩
    | succ n =>
      have one : ∀ i < [e].length, (delivered (([e] : List ReadEvent).take i)).length < n + 1 ∧ ∀ x ∈ ([e] : List ReadEvent).take i, x.Brings := by
        intro i hi
        have : i = 0 := by simp only [List.length_singleton] at hi; omega
        subst this
        exact ⟨Nat.succ_pos _, nofun⟩
      cases e with
      | error x =>
        refine ⟨[.error x], rfl, rfl, one, fun h => ?_⟩
        obtain ⟨b, bs, hb⟩ := h (.error x) (List.mem_cons_self ..)
        cases hb
      | data bs =>
        cases bs with
        | nil =>
          refine ⟨[.data []], rfl, rfl, one, fun h => ?_⟩
          obtain ⟨b, bs, hb⟩ := h (.data []) (List.mem_cons_self ..)
          cases hb
        | cons b bs =>
          rw [pull_data (Nat.succ_pos _) (by simp)]
          unfold taken
          dsimp only
          by_cases hle : n + 1 ≤ (b :: bs).length
          · rw [if_pos hle]
            refine ⟨[.data (b :: bs)], rfl, by simp [delivered], one, fun _ _ => by simpa [delivered] using hle⟩
          · rw [if_neg hle]
            obtain ⟨done, h1, h2, h3, h4⟩ := ih (n + 1 - (b :: bs).length)
            refine ⟨.data (b :: bs) :: done, congrArg (_ :: ·) h1, ?_, fun i hi => ?_, fun h hne => ?_⟩
            · rw [h2]
              show _ = ((b :: bs) ++ delivered done).drop (n + 1)
              rw [List.drop_append, List.drop_eq_nil_of_le (show (b :: bs).length ≤ n + 1 by omega), List.nil_append]
            · cases i with
              | zero => exact ⟨Nat.succ_pos _, nofun⟩
              | succ i =>
                obtain ⟨h5, h6⟩ := h3 i (by simp only [List.length_cons] at hi; omega)
                rw [List.take_succ_cons]
                refine ⟨?_, ?_⟩
                · unfold delivered
                  rw [List.length_append]
                  omega
                · intro e he
                  rcases List.mem_cons.mp he with rfl | he
                  · exact ⟨b, bs, rfl⟩
                  · exact h6 e he
            · have := h4 (fun e he => h e (List.mem_cons_of_mem _ he)) hne
              unfold delivered
              rw [List.length_append]
              omega

/-- What taking bytes from a reader does. -/
theorem BufReader.taken_reads (r : BufReader) (n : Nat) : ∃ done, r.script = done ++ (r.taken n).script ∧
    (r.taken n).buf = (r.buf ++ delivered done).drop n ∧
    (∀ i < done.length, r.buf.length + (delivered (done.take i)).length < n ∧ ∀ e ∈ done.take i, e.Brings) ∧
    ((∀ e ∈ done, e.Brings) → (r.taken n).script ≠ [] → n ≤ r.buf.length + (delivered done).length) := by
  unfold taken
  split
  · next h => exact ⟨[], rfl, by simp [delivered], nofun, fun _ _ => by omega⟩
  · next h =>
    obtain ⟨done, h1, h2, h3, h4⟩ := BufReader.pull_reads r.script (n - r.buf.length)
    refine ⟨done, h1, ?_, fun i hi => ⟨by have := (h3 i hi).1; omega, (h3 i hi).2⟩, fun a b => by have := h4 a b; omega⟩
    rw [h2, List.drop_append, List.drop_eq_nil_of_le (show r.buf.length ≤ n by omega), List.nil_append]

/-- What `parse_record` leaves of the reader. -/
theorem P.record_taken (p : Parser BufReader) (hw : p.config.Wf) (v : Visitor Cow O) :
    (P.record v p).st.data.buf = p.data.buf.taken (recordNeed p.config p.data.buf.all) ∧ (P.record v p).st.config = p.config :=
  P.header_then _ p hw fun h q => by
    rw [P.recordWithHeader_left]
    exact P.metadataWithHeader_taken q h

theorem P.metadata_taken (p : Parser BufReader) (hw : p.config.Wf) :
    ((P.metadata : P BufReader _) p).st.data.buf = p.data.buf.taken (recordNeed p.config p.data.buf.all) ∧
    ((P.metadata : P BufReader _) p).st.config = p.config :=
  P.header_then _ p hw fun h q => P.metadataWithHeader_taken q h

/-- **C88** A call of `parse_record` makes the `read` calls `done`: each of them only because the bytes there were by then are fewer
than the record has (or than a header has), and none after one that failed or said end of file. What was read beyond the record
is in the buffer for the next call. This holds for every reader, every visitor, and whether the call succeeds or not. -/
theorem c88_reads (p : Parser BufReader) (hw : p.config.Wf) (v : Visitor Cow O) :
    ∃ done, p.data.buf.script = done ++ (P.record v p).st.data.buf.script ∧
      (P.record v p).st.data.buf.buf = (p.data.buf.buf ++ delivered done).drop (recordNeed p.config p.data.buf.all) ∧
      (∀ i < done.length, p.data.buf.buf.length + (delivered (done.take i)).length < recordNeed p.config p.data.buf.all ∧
        ∀ e ∈ done.take i, e.Brings) ∧
      ((∀ e ∈ done, e.Brings) → (P.record v p).st.data.buf.script ≠ [] →
        recordNeed p.config p.data.buf.all ≤ p.data.buf.buf.length + (delivered done).length) := by
  rw [(P.record_taken p hw v).1]
  exact BufReader.taken_reads _ _

/-- **C88** `parse_metadata` reads as far as `parse_record`. -/
theorem c88_metadata (p : Parser BufReader) (hw : p.config.Wf) (v : Visitor Cow O) :
    ((P.metadata : P BufReader _) p).st.data.buf = (P.record v p).st.data.buf := by
  rw [(P.record_taken p hw v).1, (P.metadata_taken p hw).1]

/-- **C88** A record that is in the buffer is parsed without a `read` call. -/
theorem c88_buffered (p : Parser BufReader) (hw : p.config.Wf) (v : Visitor Cow O) (h8 : 8 ≤ p.data.buf.buf.length)
    (hb : sizeField p.config p.data.buf.buf ≤ p.data.buf.buf.length) :
    (P.record v p).st.data.buf = ⟨p.data.buf.buf.drop (max 8 (sizeField p.config p.data.buf.buf)), p.data.buf.script⟩ := by
  have hs : sizeField p.config p.data.buf.all = sizeField p.config p.data.buf.buf := by
    unfold sizeField BufReader.all
    rw [List.drop_append_of_le_length (by omega), List.take_append_of_le_length (by rw [List.length_drop]; omega)]
  have hl : p.data.buf.buf.length ≤ p.data.buf.all.length := by unfold BufReader.all; rw [List.length_append]; omega
  rw [(P.record_taken p hw v).1]
  unfold recordNeed
  rw [if_neg (by omega), hs]
  unfold BufReader.taken
  rw [if_pos (by omega)]

theorem scriptBytes_append {es : List ReadEvent} (h : ∀ e ∈ es, e.Brings) (fs : List ReadEvent) : scriptBytes (es ++ fs) = delivered es ++ scriptBytes fs := by
  induction es with
  | nil => rfl
  | cons e es ih =>
    obtain ⟨b, bs, rfl⟩ := h e (List.mem_cons_self ..)
    show (b :: bs) ++ scriptBytes (es ++ fs) = ((b :: bs) ++ delivered es) ++ scriptBytes fs
    rw [ih fun e he => h e (List.mem_cons_of_mem _ he), List.append_assoc]

theorem BufReader.pull_append : ∀ (es : List ReadEvent) (n : Nat) (fs : List ReadEvent), (∀ e ∈ es, e.Brings) → n ≤ (delivered es).length →
    pull n (es ++ fs) = ⟨(pull n es).buf, (pull n es).script ++ fs⟩ := by
  intro es
  induction es with
  | nil => intro n fs _ h; have : n = 0 := Nat.le_zero.mp h; subst this; simp [pull]
  | cons e es ih =>
    intro n fs hb h
    obtain ⟨b, bs, rfl⟩ := hb e (List.mem_cons_self ..)
    cases n with
    | zero => rfl
    | succ n =>
      rw [List.cons_append, pull_data (Nat.succ_pos _) (by simp), pull_data (Nat.succ_pos _) (by simp)]
      unfold taken
      dsimp only
      split
      · rfl
      · refine ih _ fs (fun e he => hb e (List.mem_cons_of_mem _ he)) ?_
        have : n + 1 ≤ ((b :: bs) ++ delivered es).length := h
        rw [List.length_append] at this
        omega

/-- **C88** A record is returned as soon as its last byte has been delivered: if the `read` calls `es` bring a complete record, then what
further calls would return has no influence on the result, and none of them is made. -/
theorem c88_prompt (es fs : List ReadEvent) (hes : ∀ e ∈ es, e.Brings) {cfg : ParseConfig} (hw : cfg.Wf) (h8 : 8 ≤ (delivered es).length)
    (hc : sizeField cfg (delivered es) ≤ (delivered es).length) (v : Visitor Cow O) :
    (P.record v (Parser.new (⟨[], es ++ fs⟩ : BufReader) cfg)).res = (P.record v (Parser.new (⟨[], es⟩ : BufReader) cfg)).res ∧
    (P.record v (Parser.new (⟨[], es ++ fs⟩ : BufReader) cfg)).st.data.buf =
      ⟨(P.record v (Parser.new (⟨[], es⟩ : BufReader) cfg)).st.data.buf.buf,
        (P.record v (Parser.new (⟨[], es⟩ : BufReader) cfg)).st.data.buf.script ++ fs⟩ := by
  have hb : scriptBytes (es ++ fs) = delivered es ++ scriptBytes fs := scriptBytes_append hes fs
  have hb0 : scriptBytes es = delivered es := by have := scriptBytes_append hes []; simpa [scriptBytes] using this
  have hs : sizeField cfg (delivered es ++ scriptBytes fs) = sizeField cfg (delivered es) := by
    unfold sizeField
    rw [List.drop_append_of_le_length (by omega), List.take_append_of_le_length (by rw [List.length_drop]; omega)]
  have hf0 : firstLen cfg (delivered es) = max 8 (sizeField cfg (delivered es)) := by unfold firstLen; omega
  have hf : firstLen cfg (delivered es ++ scriptBytes fs) = max 8 (sizeField cfg (delivered es)) := by
    unfold firstLen; rw [hs, List.length_append]; omega
  have ht : (delivered es ++ scriptBytes fs).take (max 8 (sizeField cfg (delivered es))) = (delivered es).take (max 8 (sizeField cfg (delivered es))) :=
    List.take_append_of_le_length (by omega)
  have hcomp : Complete cfg ((delivered es).take (max 8 (sizeField cfg (delivered es)))) := by
    refine ⟨by rw [List.length_take]; omega, ?_⟩
    show sizeField cfg _ ≤ _
    have : sizeField cfg ((delivered es).take (max 8 (sizeField cfg (delivered es)))) = sizeField cfg (delivered es) := by
      unfold sizeField
      rw [List.drop_take, List.take_take, Nat.min_eq_left (by omega)]
    rw [this, List.length_take]
    omega
  constructor
  · rw [c86_reader _ hw, c86_reader _ hw, hb, hb0, Piped.record_alone v (.through (delivered es ++ scriptBytes fs) _ cfg) rfl
      (.inl (by show Complete cfg ((delivered es ++ scriptBytes fs).take (firstLen cfg (delivered es ++ scriptBytes fs))); rw [hf, ht]; exact hcomp)),
      Piped.record_alone v (.through (delivered es) _ cfg) rfl
      (.inl (by show Complete cfg ((delivered es).take (firstLen cfg (delivered es))); rw [hf0]; exact hcomp))]
    show (Piped.record v).result (.through ((delivered es ++ scriptBytes fs).take (firstLen cfg (delivered es ++ scriptBytes fs))) .eof cfg) =
      (Piped.record v).result (.through ((delivered es).take (firstLen cfg (delivered es))) .eof cfg)
    rw [hf, ht, hf0]
  · rw [(P.record_taken _ hw v).1, (P.record_taken _ hw v).1]
    show BufReader.taken ⟨[], es ++ fs⟩ (recordNeed cfg (scriptBytes (es ++ fs))) = _
    have h1 : recordNeed cfg (scriptBytes (es ++ fs)) = max 8 (sizeField cfg (delivered es)) := by
      unfold recordNeed; rw [hb, hs, List.length_append, if_neg (by omega)]
    have h2 : recordNeed cfg (scriptBytes es) = max 8 (sizeField cfg (delivered es)) := by
      unfold recordNeed; rw [hb0, if_neg (by omega)]
    have h3 : ∀ xs : List ReadEvent, ∀ n, 8 ≤ n → BufReader.taken ⟨[], xs⟩ n = BufReader.pull n xs := by
      intro xs n hn
      unfold BufReader.taken
      rw [if_neg (by simp only [List.length_nil]; omega)]
      rfl
    rw [show (Parser.new (⟨[], es⟩ : BufReader) cfg).config = cfg from rfl, show (Parser.new (⟨[], es⟩ : BufReader) cfg).data.buf = ⟨[], es⟩ from rfl,
      show (⟨[], es⟩ : BufReader).all = scriptBytes es from rfl, h1, h2, h3 _ _ (by omega), h3 _ _ (by omega)]
    exact BufReader.pull_append es _ fs hes (by omega)

/-! ## Any number of calls, on any reader -/

/-- What a reader is left as by `k` calls. -/
def BufReader.afterCalls (cfg : ParseConfig) : Nat → BufReader → BufReader
  | 0, r => r
  | k + 1, r => BufReader.afterCalls cfg k (r.taken (recordNeed cfg r.all))

/-- What each of `k` calls returns: the record at the front of the bytes to come before the next error or end of file. -/
def BufReader.eachCall (cfg : ParseConfig) (v : Visitor Cow O) : Nat → BufReader → List (Except Fault O)
  | 0, _ => []
  | k + 1, r => (Piped.record v).result (.through r.all (scriptFin r.script) cfg) :: BufReader.eachCall cfg v k (r.taken (recordNeed cfg r.all))

/-- **C88** All calls on a reader, whatever its `read` calls return: also one that goes on after errors and ends of file. -/
theorem c88_calls (p : Parser BufReader) (hw : p.config.Wf) (v : Visitor Cow O) (k : Nat) :
    (visitMany v k p).1 = BufReader.eachCall p.config v k p.data.buf ∧
    (visitMany v k p).2.data.buf = BufReader.afterCalls p.config k p.data.buf ∧ (visitMany v k p).2.config = p.config := by
  induction k generalizing p with
  | zero => exact ⟨rfl, rfl, rfl⟩
  | succ k ih =>
    obtain ⟨h1, h2⟩ := P.record_taken p hw v
    obtain ⟨i1, i2, i3⟩ := ih (P.record v p).st (by rw [h2]; exact hw)
    rw [h1, h2] at i1 i2
    refine ⟨?_, i2, i3.trans h2⟩
    show (P.record v p).res :: (visitMany v k (P.record v p).st).1 = _ :: _
    rw [i1, (c86_temporary (RepP.bufReader p hw) rfl v).1]
    congr 1
    exact Piped.record_congr v ⟨rfl, rfl, rfl⟩ rfl rfl

/-! ## Examples -/

/-- A LOST record in two portions, the second with three bytes more, then a failing `read`, then another record: the first call makes
two `read` calls and keeps the three bytes, the second fails after one call, the third one reads the other record. -/
def demoLive : List ReadEvent := [.data (demoLost.take 10), .data (demoLost.drop 10), .error ⟨false, "timed out"⟩, .data (demoLost.take 24)]

theorem c88_example :
    (P.record (recordVisitor Cow) (Parser.new (⟨[], demoLive⟩ : BufReader) demoCfg)).st.data.buf = ⟨[0xaa, 0xbb, 0xcc], demoLive.drop 2⟩ ∧
    recordNeed demoCfg (scriptBytes demoLive) = 24 ∧
    (match (visitMany (recordVisitor Cow) 3 (Parser.new (⟨[], demoLive⟩ : BufReader) demoCfg)).1 with
      | [.ok (.lost r), .error (.err _), .ok (.lost r')] => r == ⟨7, 3⟩ && r' == ⟨7, 3⟩
      | _ => false) = true ∧
    (visitMany (recordVisitor Cow) 2 (Parser.new (⟨[], demoLive⟩ : BufReader) demoCfg)).2.data.buf = ⟨[], demoLive.drop 3⟩ := by decide +kernel

end Perf
