import Verif.Proof.Sim
/-!
# Buffers that agree for a while

If two buffers agree on their next `k` bytes, a record of at most `k` bytes is read the same from both, whatever
follows: more bytes, the end of the input, a reader that fails.
-/
namespace Perf
variable {β γ : Type} [ParseBuf β] [ParseBuf γ] {α α' T : Type}

/-- `R k b c` says that `b` and `c` show the same next `k` bytes, cut at the same places. -/
def BufAgree (R : Nat → β → γ → Prop) : Prop :=
  ∀ k b c, R k b c → 0 < k → ∃ x y, (ParseBuf.chunk b).1 = .ok x ∧ (ParseBuf.chunk c).1 = .ok y ∧ x.loc = y.loc ∧
    x.data ≠ [] ∧ y.data ≠ [] ∧ x.data.take k = y.data.take k ∧ R k (ParseBuf.chunk b).2 (ParseBuf.chunk c).2 ∧
    ParseBuf.steps (ParseBuf.chunk b).2 ≤ ParseBuf.steps b ∧ ParseBuf.steps (ParseBuf.chunk c).2 ≤ ParseBuf.steps c ∧
    ∀ n, n ≤ k → n ≤ x.data.length → n ≤ y.data.length → ∃ b' c', ParseBuf.advance (ParseBuf.chunk b).2 n = some b' ∧
      ParseBuf.advance (ParseBuf.chunk c).2 n = some c' ∧ R (k - n) b' c' ∧
      ParseBuf.steps b' + n ≤ ParseBuf.steps (ParseBuf.chunk b).2 ∧ ParseBuf.steps c' + n ≤ ParseBuf.steps (ParseBuf.chunk c).2

/-- Both sides succeed with the same value and stay related. -/
def Same (R : β → γ → Prop) (o : Out β α) (o' : Out γ α) : Prop :=
  ∃ a p q l l', o = ⟨.ok a, p, l⟩ ∧ o' = ⟨.ok a, q, l'⟩ ∧ SimP R p q

omit [ParseBuf β] [ParseBuf γ] in
theorem Same.pure {R : β → γ → Prop} {p : Parser β} {q : Parser γ} (h : SimP R p q) (a : α) :
    Same R ((Pure.pure a : P β α) p) ((Pure.pure a : P γ α) q) := ⟨a, p, q, [], [], rfl, rfl, h⟩

omit [ParseBuf β] [ParseBuf γ] in
theorem Same.bind {R R' : β → γ → Prop} {m : P β α} {m' : P γ α} {k : α → P β α'} {k' : α → P γ α'} {p : Parser β} {q : Parser γ}
    (h : Same R (m p) (m' q)) (hk : ∀ a p' q', SimP R p' q' → Same R' (k a p') (k' a q')) :
    Same R' ((m >>= k) p) ((m' >>= k') q) := by
  obtain ⟨a, p', q', l, l', h1, h2, h3⟩ := h
  obtain ⟨b, p'', q'', l2, l2', h4, h5, h6⟩ := hk a p' q' h3
  rw [P.bind_ok h1, P.bind_ok h2, h4, h5]
  exact ⟨b, p'', q'', _, _, rfl, rfl, h6⟩

variable {R : Nat → β → γ → Prop}

/-- One `chunk` call followed by a consumption of `n` bytes. -/
theorem BufAgree.take (A : BufAgree R) {k : Nat} (hk : 0 < k) {p : Parser β} {q : Parser γ} (h : SimP (R k) p q) :
    ∃ x y p1 q1, P.chunk p = ⟨.ok x, p1, []⟩ ∧ P.chunk q = ⟨.ok y, q1, []⟩ ∧ x.loc = y.loc ∧ x.data ≠ [] ∧ y.data ≠ [] ∧
      x.data.take k = y.data.take k ∧ SimP (R k) p1 q1 ∧ ParseBuf.steps p1.data ≤ ParseBuf.steps p.data ∧
      ParseBuf.steps q1.data ≤ ParseBuf.steps q.data ∧
      ∀ n, n ≤ k → n ≤ x.data.length → n ≤ y.data.length → ∃ p2 q2, P.advance n p1 = ⟨.ok (), p2, []⟩ ∧ P.advance n q1 = ⟨.ok (), q2, []⟩ ∧
        SimP (R (k - n)) p2 q2 ∧ ParseBuf.steps p2.data + n ≤ ParseBuf.steps p1.data ∧
        ParseBuf.steps q2.data + n ≤ ParseBuf.steps q1.data := by
  obtain ⟨x, y, h1, h2, h3, h4, h5, h6, h7, h8, h9, h10⟩ := A k _ _ h.buf hk
  refine ⟨x, y, { p with data := (ParseBuf.chunk p.data).2 }, { q with data := (ParseBuf.chunk q.data).2 }, ?_, ?_, h3, h4, h5, h6,
    ⟨h7, h.offset, h.config⟩, h8, h9, fun n ha hb hc => ?_⟩
  · exact P.run_eq _ (show (P.chunk p).res = _ from h1)
  · exact P.run_eq _ (show (P.chunk q).res = _ from h2)
  · obtain ⟨b', c', g1, g2, g3, g4, g5⟩ := h10 n ha hb hc
    refine ⟨{ p with data := ⟨b', p.data.offset + n⟩ }, { q with data := ⟨c', q.data.offset + n⟩ }, ?_, ?_,
      ⟨g3, by show p.data.offset + n = q.data.offset + n; rw [h.offset], h.config⟩, g4, g5⟩
    · unfold P.advance
      have e : ParseBuf.advance (ParseBuf.chunk p.data).2 n = some ⟨b', p.data.offset + n⟩ := by
        show (ParseBuf.advance (ParseBuf.chunk p.data.buf).2 n).map _ = _; rw [g1]; rfl
      dsimp only
      rw [e]
    · unfold P.advance
      have e : ParseBuf.advance (ParseBuf.chunk q.data).2 n = some ⟨c', q.data.offset + n⟩ := by
        show (ParseBuf.advance (ParseBuf.chunk q.data.buf).2 n).map _ = _; rw [g2]; rfl
      dsimp only
      rw [e]

/-- What two chunks with the same next `k` bytes have in common. -/
theorem take_agree {x y : List Byte} {k n : Nat} (h : x.take k = y.take k) (hn : n ≤ k) :
    x.take n = y.take n ∧ min x.length n = min y.length n := by
  have h1 : x.take n = y.take n := by
    have := congrArg (List.take n) h
    rwa [List.take_take, List.take_take, Nat.min_eq_left hn] at this
  refine ⟨h1, ?_⟩
  have := congrArg List.length h1
  rw [List.length_take, List.length_take] at this
  omega

theorem BufAgree.toSliceLoop (A : BufAgree R) : ∀ (n n' k len : Nat) (bs : List Byte) (p : Parser β) (q : Parser γ),
    SimP (R k) p q → len ≤ k → ParseBuf.steps p.data < n → ParseBuf.steps q.data < n' →
    Same (R (k - len)) (P.toSliceLoop n len bs p) (P.toSliceLoop n' len bs q)
  | 0, _, _, _, _, _, _, _, _, h, _ => absurd h (Nat.not_lt_zero _)
  | _ + 1, 0, _, _, _, _, _, _, _, _, h => absurd h (Nat.not_lt_zero _)
  | n + 1, n' + 1, k, len, bs, p, q, hp, hl, h, h' => by
    unfold P.toSliceLoop
    by_cases h0 : len = 0
    · rw [P.ite_pos h0, P.ite_pos h0]
      subst h0
      exact Same.pure hp _
    · rw [P.ite_neg h0, P.ite_neg h0]
      obtain ⟨x, y, p1, q1, e1, e2, e3, e4, e5, e6, e7, e8, e9, e10⟩ := A.take (by omega) hp
      rw [P.bind_nil e1, P.bind_nil e2]
      obtain ⟨t1, t2⟩ := take_agree e6 hl
      have hx := List.length_pos_iff.mpr e4
      obtain ⟨p2, q2, g1, g2, g3, g4, g5⟩ := e10 (min x.data.length len) (by omega) (by omega) (by omega)
      rw [← t2, P.bind_nil g1, P.bind_nil g2, ← (take_agree e6 (n := min x.data.length len) (by omega)).1]
      have := toSliceLoop A n n' (k - min x.data.length len) (len - min x.data.length len)
        (bs ++ x.data.take (min x.data.length len)) p2 q2 g3 (by omega) (by omega) (by omega)
      rwa [show k - min x.data.length len - (len - min x.data.length len) = k - len by omega] at this

theorem BufAgree.array (A : BufAgree R) {k n : Nat} (hn : n ≤ k) (hk : 0 < k) {p : Parser β} {q : Parser γ} (h : SimP (R k) p q) :
    Same (R (k - n)) (P.array n p) (P.array n q) := by
  obtain ⟨x, y, p1, q1, e1, e2, e3, e4, e5, e6, e7, e8, e9, e10⟩ := A.take hk h
  unfold P.array
  rw [P.bind_nil e1, P.bind_nil e2]
  obtain ⟨t1, t2⟩ := take_agree e6 hn
  by_cases hlt : x.data.length < n
  · rw [P.ite_pos hlt, P.ite_pos (show y.data.length < n by omega)]
    unfold P.toSlice
    rw [P.bind_nil (P.fuel_run p1), P.bind_nil (P.fuel_run q1)]
    exact A.toSliceLoop _ _ k n [] p1 q1 e7 hn (Nat.lt_succ_self _) (Nat.lt_succ_self _)
  · rw [P.ite_neg hlt, P.ite_neg (show ¬ y.data.length < n by omega)]
    obtain ⟨p2, q2, g1, g2, g3, g4, g5⟩ := e10 n hn (by omega) (by omega)
    rw [P.bind_nil g1, P.bind_nil g2, t1]
    exact Same.pure g3 _

omit [ParseBuf β] [ParseBuf γ] in
theorem Same.config {R : β → γ → Prop} {p : Parser β} {q : Parser γ} (h : SimP R p q) :
    Same R ((P.config : P β _) p) ((P.config : P γ _) q) :=
  ⟨p.config, p, q, [], [], rfl, by rw [h.config]; rfl, h⟩

theorem BufAgree.header (A : BufAgree R) {k : Nat} (hk : 8 ≤ k) {p : Parser β} {q : Parser γ} (h : SimP (R k) p q) :
    Same (R (k - 8)) ((parseHeader : P β Header) p) ((parseHeader : P γ Header) q) := by
  refine Same.bind (R := R (k - 4)) ?_ fun a p1 q1 h1 => Same.bind (R := R (k - 6)) ?_ fun b p2 q2 h2 =>
    Same.bind (R := R (k - 8)) ?_ fun c p3 q3 h3 => Same.pure h3 _
  · exact Same.bind (A.array (n := 4) (by omega) (by omega) h) fun a p' q' h' => Same.bind (Same.config h') fun _ _ _ h => Same.pure h _
  · have := A.array (n := 2) (by omega) (by omega) h1
    rw [show k - 4 - 2 = k - 6 by omega] at this
    exact Same.bind this fun a p' q' h' => Same.bind (Same.config h') fun _ _ _ h => Same.pure h _
  · have := A.array (n := 2) (by omega) (by omega) h2
    rw [show k - 6 - 2 = k - 8 by omega] at this
    exact Same.bind this fun a p' q' h' => Same.bind (Same.config h') fun _ _ _ h => Same.pure h _

omit [ParseBuf β] [ParseBuf γ] in
theorem Same.pushChunk {R : β → γ → Prop} {p : Parser β} {q : Parser γ} (h : SimP R p q) (c : Chunk) (cs : List Chunk) :
    Same R ((P.pushChunk c cs : P β _) p) ((P.pushChunk c cs : P γ _) q) := by
  unfold P.pushChunk
  by_cases hc : c.data.length > 0
  · rw [P.ite_pos hc, P.ite_pos hc]
    obtain ⟨l, h1⟩ := Sim.toCow_run c p
    obtain ⟨l', h2⟩ := Sim.toCow_run c q
    rw [P.bind_ok h1, P.bind_ok h2]
    exact ⟨_, p, q, _, _, rfl, rfl, h⟩
  · rw [P.ite_neg hc, P.ite_neg hc]
    exact Same.pure h _

theorem BufAgree.cursorLoop (A : BufAgree R) : ∀ (n n' k len : Nat) (acc : List Chunk) (p : Parser β) (q : Parser γ),
    SimP (R k) p q → len ≤ k → ParseBuf.steps p.data < n → ParseBuf.steps q.data < n' →
    Same (R (k - len)) (P.cursorLoop n len acc p) (P.cursorLoop n' len acc q)
  | 0, _, _, _, _, _, _, _, _, h, _ => absurd h (Nat.not_lt_zero _)
  | _ + 1, 0, _, _, _, _, _, _, _, _, h => absurd h (Nat.not_lt_zero _)
  | n + 1, n' + 1, k, len, acc, p, q, hp, hl, h, h' => by
    unfold P.cursorLoop
    by_cases h0 : len = 0
    · rw [P.ite_pos h0, P.ite_pos h0]
      subst h0
      exact Same.pure hp _
    · rw [P.ite_neg h0, P.ite_neg h0]
      obtain ⟨x, y, p1, q1, e1, e2, e3, e4, e5, e6, e7, e8, e9, e10⟩ := A.take (by omega) hp
      rw [P.bind_nil e1, P.bind_nil e2]
      obtain ⟨t1, t2⟩ := take_agree e6 hl
      have hx := List.length_pos_iff.mpr e4
      have hd : ∀ c : Chunk, c.truncate len = ⟨c.loc, c.data.take len⟩ := by
        intro c
        unfold Chunk.truncate
        split
        · rename_i hc; rw [List.take_of_length_le hc]
        · rfl
      have hxy : x.truncate len = y.truncate len := by rw [hd, hd, e3, t1]
      have hxl : (x.truncate len).data.length = min x.data.length len := by
        rw [Sim.truncate_data, List.length_take, Nat.min_comm]
      rw [← hxy]
      generalize x.truncate len = c at *
      obtain ⟨p2, q2, g1, g2, g3, g4, g5⟩ := e10 c.data.length (by omega) (by omega) (by omega)
      have hpush : ∀ {δ : Type} [ParseBuf δ] (r : Parser δ), ∃ a l, P.pushChunk c acc r = ⟨.ok a, r, l⟩ ∧
          a = if c.data.length > 0 then c :: acc else acc := by
        intro δ _ r
        unfold P.pushChunk
        by_cases hc : c.data.length > 0
        · obtain ⟨l, hl⟩ := Sim.toCow_run c r
          rw [P.ite_pos hc, P.bind_ok hl, if_pos hc]
          exact ⟨_, _, rfl, rfl⟩
        · rw [P.ite_neg hc, if_neg hc]
          exact ⟨_, _, rfl, rfl⟩
      obtain ⟨a, l, k1, ha⟩ := hpush p1
      obtain ⟨a', l', k2, ha'⟩ := hpush q1
      rw [← ha] at ha'
      subst ha'
      rw [P.bind_ok k1, P.bind_ok k2, P.bind_nil g1, P.bind_nil g2]
      obtain ⟨z, pz, qz, lz, lz', z1, z2, z3⟩ := cursorLoop A n n' (k - c.data.length) (len - c.data.length) a' p2 q2 g3 (by omega)
        (by omega) (by omega)
      rw [z1, z2]
      rw [show k - c.data.length - (len - c.data.length) = k - len by omega] at z3
      exact ⟨z, pz, qz, _, _, rfl, rfl, z3⟩

theorem BufAgree.splitAt (A : BufAgree R) {k len : Nat} (hl : len ≤ k) {p : Parser β} {q : Parser γ} (h : SimP (R k) p q) :
    Same (R (k - len)) (P.splitAt len p) (P.splitAt len q) := by
  unfold P.splitAt P.newCursor
  refine Same.bind (R := R (k - len)) ?_ fun c p1 q1 h1 => Same.bind (Same.config h1) fun _ _ _ h2 => Same.pure h2 _
  rw [P.bind_nil (P.fuel_run p), P.bind_nil (P.fuel_run q)]
  exact Same.bind (A.cursorLoop _ _ k len [] p q h hl (Nat.lt_succ_self _) (Nat.lt_succ_self _)) fun _ _ _ h2 => Same.pure h2 _

/-- Same value or error, and the parsers stay related. -/
def Equal (R : β → γ → Prop) (o : Out β α) (o' : Out γ α) : Prop := o.res = o'.res ∧ SimP R o.st o'.st

omit [ParseBuf β] [ParseBuf γ] in
theorem Same.equal {R : β → γ → Prop} {o : Out β α} {o' : Out γ α} (h : Same R o o') : Equal R o o' := by
  obtain ⟨a, p, q, l, l', rfl, rfl, h⟩ := h
  exact ⟨rfl, h⟩

omit [ParseBuf β] [ParseBuf γ] in
theorem Equal.bind {R : β → γ → Prop} {m : P β α} {m' : P γ α} {k : α → P β α'} {k' : α → P γ α'} {p : Parser β} {q : Parser γ}
    (h : Equal R (m p) (m' q)) (hk : ∀ a p' q', SimP R p' q' → Equal R (k a p') (k' a q')) :
    Equal R ((m >>= k) p) ((m' >>= k') q) := Sim.seq h fun a _ _ => hk a _ _ h.2

omit [ParseBuf β] [ParseBuf γ] in
theorem Same.then {R R' : β → γ → Prop} {m : P β α} {m' : P γ α} {k : α → P β α'} {k' : α → P γ α'} {p : Parser β} {q : Parser γ}
    (h : Same R (m p) (m' q)) (hk : ∀ a p' q', SimP R p' q' → Equal R' (k a p') (k' a q')) :
    Equal R' ((m >>= k) p) ((m' >>= k') q) := by
  obtain ⟨a, p', q', l, l', h1, h2, h3⟩ := h
  rw [P.bind_ok h1, P.bind_ok h2]
  exact hk a p' q' h3

omit [ParseBuf β] [ParseBuf γ] in
theorem Equal.onChild {R : β → γ → Prop} {δ : Type} {p : Parser β} {q : Parser γ} (h : SimP R p q) (c : Parser δ) (m : P δ α) :
    Equal R (P.onChild (β := β) c m p) (P.onChild (β := γ) c m q) := by
  unfold P.onChild
  rcases hm : (m c).res with e | a <;> simp only [hm] <;> exact ⟨rfl, h⟩

omit [ParseBuf β] [ParseBuf γ] in
theorem Equal.recordImpl {R : β → γ → Prop} {δ O : Type} [ParseBuf δ] {p : Parser β} {q : Parser γ} (h : SimP R p q) (c : Parser δ)
    (v : Visitor Cow O) (md : Metadata) : Equal R (P.recordImpl c v md p) (P.recordImpl c v md q) :=
  Equal.bind (Equal.onChild h _ _) fun _ _ _ h => ⟨rfl, h⟩

theorem BufAgree.metadataWithHeader (A : BufAgree R) {k : Nat} {hd : Header} (hk : hd.size.toNat - 8 ≤ k) {p : Parser β} {q : Parser γ}
    (h : SimP (R k) p q) : (P.metadataWithHeader hd p).res = (P.metadataWithHeader hd q).res ∧
      (8 ≤ hd.size.toNat → SimP (R (k - (hd.size.toNat - 8))) (P.metadataWithHeader hd p).st (P.metadataWithHeader hd q).st) := by
  unfold P.metadataWithHeader
  by_cases h8 : hd.size.toNat < 8
  · rw [P.ite_pos h8, P.ite_pos h8]
    exact ⟨rfl, fun h => by omega⟩
  · rw [P.ite_neg h8, P.ite_neg h8]
    refine (fun (this : Equal (R (k - (hd.size.toNat - 8))) _ _) => ⟨this.1, fun _ => this.2⟩)
      (Same.then (A.splitAt hk h) fun rp p1 q1 h1 => ?_)
    by_cases hty : hd.type_.toNat = 1 ∨ hd.type_.toNat = 9
    · rw [P.ite_pos hty, P.ite_pos hty]
      exact ⟨rfl, h1⟩
    · rw [P.ite_neg hty, P.ite_neg hty]
      by_cases hlt : hd.size.toNat - 8 < SampleId.estimateLen rp.config
      · rw [P.ite_pos hlt, P.ite_pos hlt]
        exact ⟨rfl, h1⟩
      · rw [P.ite_neg hlt, P.ite_neg hlt]
        exact Equal.bind (Equal.onChild h1 _ _) fun r p2 q2 h2 => Equal.bind (Equal.onChild h2 _ _) fun r p3 q3 h3 => ⟨rfl, h3⟩

theorem BufAgree.recordWithHeader {O : Type} (A : BufAgree R) {k : Nat} {hd : Header} (hk : hd.size.toNat - 8 ≤ k) {p : Parser β} {q : Parser γ}
    (h : SimP (R k) p q) (v : Visitor Cow O) : (P.recordWithHeader v hd p).res = (P.recordWithHeader v hd q).res ∧
      (8 ≤ hd.size.toNat → SimP (R (k - (hd.size.toNat - 8))) (P.recordWithHeader v hd p).st (P.recordWithHeader v hd q).st) := by
  obtain ⟨h1, h2⟩ := A.metadataWithHeader hk h
  unfold P.recordWithHeader
  rcases hm : (P.metadataWithHeader hd p).res with e | ⟨c, md⟩
  · rw [P.bind_err (P.run_eq _ hm), P.bind_err (P.run_eq _ (h1 ▸ hm))]
    exact ⟨rfl, h2⟩
  · rw [P.bind_ok (P.run_eq _ hm), P.bind_ok (P.run_eq _ (h1 ▸ hm))]
    have h8 : 8 ≤ hd.size.toNat := by
      rcases Nat.lt_or_ge hd.size.toNat 8 with hlt | hge
      · unfold P.metadataWithHeader at hm
        rw [P.ite_pos hlt] at hm
        cases hm
      · exact hge
    dsimp only
    rcases c.data.buf.asSlice with - | s
    · exact ⟨(Equal.recordImpl (h2 h8) c v md).1, fun _ => (Equal.recordImpl (h2 h8) c v md).2⟩
    · exact ⟨(Equal.recordImpl (h2 h8) (Parser.new s c.config) v md).1, fun _ => (Equal.recordImpl (h2 h8) (Parser.new s c.config) v md).2⟩

/-- A record that fits into the part on which the buffers agree is read the same from both. -/
theorem BufAgree.record {O : Type} (A : BufAgree R) {k : Nat} (hk : 8 ≤ k) {p : Parser β} {q : Parser γ} (h : SimP (R k) p q)
    (v : Visitor Cow O) (hfit : ∀ hd, ((parseHeader : P β Header) p).res = .ok hd → hd.size.toNat ≤ k) :
    (P.record v p).res = (P.record v q).res ∧
    ∀ hd, ((parseHeader : P β Header) p).res = .ok hd → 8 ≤ hd.size.toNat →
      SimP (R (k - hd.size.toNat)) (P.record v p).st (P.record v q).st := by
  obtain ⟨hd, p1, q1, l, l', h1, h2, h3⟩ := A.header hk h
  have hs := hfit hd (by rw [h1])
  obtain ⟨g1, g2⟩ := A.recordWithHeader (hd := hd) (by omega) h3 v
  unfold P.record
  rw [P.bind_ok h1, P.bind_ok h2]
  refine ⟨g1, fun hd' h' h8 => ?_⟩
  rw [h1] at h'
  cases h'
  have := g2 h8
  rwa [show k - 8 - (hd.size.toNat - 8) = k - hd.size.toNat by omega] at this

end Perf
