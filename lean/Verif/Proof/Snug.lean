import Verif.Proof.Grow
/-!
# A record in one piece of memory: nothing grows

On a buffer that is one borrowed piece of memory and announces exactly what is left, the parser makes no request beyond those
already listed by `Out.log`, except for the slots of the regions it splits off.
-/
namespace Perf
variable {β : Type} {α α' T : Type}

/-- `J d b`: the buffer `b` is one borrowed piece of memory holding `d`. -/
structure OnePiece [ParseBuf β] (J : List Byte → β → Prop) : Prop where
  chunk : ∀ d b, J d b → J d (ParseBuf.chunk b).2 ∧
    ((d = [] ∧ (ParseBuf.chunk b).1 = .error (.err .eof)) ∨ (d ≠ [] ∧ ∃ a, (ParseBuf.chunk b).1 = .ok ⟨.external a, d⟩))
  advance : ∀ d b n b', J d b → ParseBuf.advance b n = some b' → n ≤ d.length ∧ J (d.drop n) b'

/-- In addition it announces how much is left. -/
structure Measured [ParseBuf β] (J : List Byte → β → Prop) : Prop extends OnePiece J where
  hint : ∀ d b, J d b → ParseBuf.hint b = some d.length

/-- Consumed and left are `N` bytes together. -/
def Intact (J : List Byte → β → Prop) (N : Nat) (p : Parser β) : Prop :=
  ∃ d, J d p.data.buf ∧ p.data.offset + d.length = N

section
variable [ParseBuf β] {J : List Byte → β → Prop}

theorem OnePiece.tracking (o : OnePiece J) : OnePiece (fun d (t : Tracking β) => J d t.buf) where
  chunk d t h := o.chunk d t.buf h
  advance d t n t' h ha := by
    rcases hb : ParseBuf.advance t.buf n with _ | b
    · have hd : ParseBuf.advance t n = none := by
        show (ParseBuf.advance t.buf n).map _ = none
        rw [hb]; rfl
      rw [hd] at ha; cases ha
    · have hd : ParseBuf.advance t n = some ⟨b, t.offset + n⟩ := by
        show (ParseBuf.advance t.buf n).map _ = _
        rw [hb]; rfl
      rw [hd] at ha; cases ha
      exact o.advance _ _ _ _ h hb

theorem Measured.tracking (m : Measured J) : Measured (fun d (t : Tracking β) => J d t.buf) where
  toOnePiece := m.toOnePiece.tracking
  hint d t h := m.hint d t.buf h

/-- The chunk of such a buffer. -/
theorem OnePiece.chunk_run (o : OnePiece J) {d : List Byte} {p : Parser β} (h : J d p.data.buf) :
    ∃ q, J d q.data.buf ∧ q.data.offset = p.data.offset ∧
      ((d = [] ∧ P.chunk p = ⟨.error (.err .eof), q, []⟩) ∨ (d ≠ [] ∧ ∃ a, P.chunk p = ⟨.ok ⟨.external a, d⟩, q, []⟩)) := by
  obtain ⟨h1, h2⟩ := o.chunk d p.data.buf h
  refine ⟨(P.chunk p).st, h1, rfl, ?_⟩
  have he : (P.chunk p).res = (ParseBuf.chunk p.data.buf).1 := rfl
  rcases h2 with ⟨h2, h3⟩ | ⟨h2, a, h3⟩
  · exact .inl ⟨h2, P.run_eq _ (he.trans h3)⟩
  · exact .inr ⟨h2, a, P.run_eq _ (he.trans h3)⟩

theorem OnePiece.advance_run (o : OnePiece J) {d : List Byte} {p : Parser β} (h : J d p.data.buf) (n : Nat) :
    P.advance n p = ⟨.error .panic, p, []⟩ ∨ ∃ q, P.advance n p = ⟨.ok (), q, []⟩ ∧ n ≤ d.length ∧ J (d.drop n) q.data.buf ∧
      q.data.offset = p.data.offset + n := by
  unfold P.advance
  rcases hb : ParseBuf.advance p.data.buf n with _ | b
  · have hd : ParseBuf.advance p.data n = none := by
      show (ParseBuf.advance p.data.buf n).map _ = none
      rw [hb]; rfl
    rw [hd]
    exact .inl rfl
  · have hd : ParseBuf.advance p.data n = some ⟨b, p.data.offset + n⟩ := by
      show (ParseBuf.advance p.data.buf n).map _ = _
      rw [hb]; rfl
    rw [hd]
    obtain ⟨h1, h2⟩ := o.advance _ _ _ _ h hb
    exact .inr ⟨_, rfl, h1, h2, rfl⟩

theorem OnePiece.stable (o : OnePiece J) (N : Nat) : Stable (Intact J N) where
  chunk p h := by
    obtain ⟨d, h1, h2⟩ := h
    exact ⟨d, (o.chunk d _ h1).1, h2⟩
  advance p n h := by
    obtain ⟨d, h1, h2⟩ := h
    rcases o.advance_run h1 n with hr | ⟨q, hr, h3, h4, h5⟩
    · rw [hr]; exact ⟨d, h1, h2⟩
    · rw [hr]
      refine ⟨_, h4, ?_⟩
      rw [List.length_drop]
      show q.data.offset + _ = _
      omega

end

/-- Both make the same run on one piece of memory. -/
def Snug (J : List Byte → β → Prop) (m m' : P β α) : Prop :=
  ∀ N p, Intact J N p → m p = m' p ∧ Intact J N (m' p).st

namespace Snug
variable {J : List Byte → β → Prop}

theorem of_inv {Q : α → Prop} {m : P β α} (h : ∀ N, Inv (Intact J N) Q m) : Snug J m m := fun N p hp => ⟨rfl, (h N p hp).1⟩
theorem of_eats {n : Nat} {m : P β α} (h : ∀ N, Eats (Intact J N) n m) : Snug J m m := fun N p hp => ⟨rfl, (h N p hp).1⟩

theorem bind {m m' : P β α} {k k' : α → P β α'} (h : Snug J m m') (hk : ∀ a, Snug J (k a) (k' a)) : Snug J (m >>= k) (m' >>= k') := by
  intro N p hp
  obtain ⟨h1, h2⟩ := h N p hp
  rcases hm : (m' p).res with e | a
  · rw [P.bind_err (P.run_eq _ hm)]
    refine ⟨?_, h2⟩
    have hm' : (m p).res = .error e := by rw [h1]; exact hm
    rw [P.bind_err (P.run_eq _ hm'), h1]
  · rw [P.bind_ok (P.run_eq _ hm)]
    obtain ⟨g1, g2⟩ := hk a N _ h2
    refine ⟨?_, g2⟩
    have hm' : (m p).res = .ok a := by rw [h1]; exact hm
    rw [P.bind_ok (P.run_eq _ hm'), h1, g1]

theorem pure (a : α) : Snug J (Pure.pure a : P β α) (Pure.pure a) := fun _ _ hp => ⟨rfl, hp⟩
theorem fault (e : Fault) : Snug J (P.fault e : P β α) (P.fault e) := fun _ _ hp => ⟨rfl, hp⟩
theorem ite {c : Prop} [Decidable c] {a b a' b' : P β α} (h1 : c → Snug J a a') (h2 : ¬ c → Snug J b b') :
    Snug J (if c then a else b) (if c then a' else b') := by
  by_cases h : c
  · rw [if_pos h, if_pos h]; exact h1 h
  · rw [if_neg h, if_neg h]; exact h2 h

variable [ParseBuf β]

/-- The vector has room for everything that is left. -/
theorem bytesSlowLoop (o : OnePiece J) : ∀ (fuel len : Nat) (bs : List Byte) (cap : Nat) (p : Parser β) (d : List Byte), J d p.data.buf →
    bs.length + d.length ≤ cap → (Heap.bytesSlowLoop fuel len bs cap : P β (List Byte)) p = P.bytesSlowLoop fuel len bs p
  | 0, _, _, _, _, _, _, _ => rfl
  | fuel + 1, len, bs, cap, p, d, hd, hc => by
    unfold Heap.bytesSlowLoop P.bytesSlowLoop
    by_cases h0 : len = 0
    · rw [if_pos h0, if_pos h0]
    rw [if_neg h0, if_neg h0]
    obtain ⟨q, h1, _, ⟨_, h3⟩ | ⟨_, a, h3⟩⟩ := o.chunk_run hd
    · rw [P.bind_err h3, P.bind_err h3]
    · rw [P.bind_nil h3, P.bind_nil h3]
      have hl : ((⟨.external a, d⟩ : Chunk).truncate len).data.length ≤ d.length := by
        unfold Chunk.truncate
        split
        · exact Nat.le_refl _
        · simp only [List.length_take]; omega
      have hr := Heap.reserve_run (β := β) 1 cap (bs.length + ((⟨.external a, d⟩ : Chunk).truncate len).data.length) q
      rw [if_pos (by omega)] at hr
      rw [P.bind_nil hr]
      rcases o.advance_run h1 ((⟨.external a, d⟩ : Chunk).truncate len).data.length with h4 | ⟨q', h4, h5, h6, _⟩
      · rw [P.bind_err h4, P.bind_err h4]
      · rw [P.bind_nil h4, P.bind_nil h4]
        refine bytesSlowLoop o fuel _ _ cap q' _ h6 ?_
        rw [List.length_append, List.length_drop]
        omega

/-- Borrowed, or not at all. -/
theorem bytes_run (m : Measured J) (len : Nat) (p : Parser β) (d : List Byte) (hd : J d p.data.buf) :
    (Heap.bytes len : P β (Cow Byte)) p = P.bytes len p ∧
    ∀ c, ((P.bytes len : P β (Cow Byte)) p).res = .ok c → ∃ x, c = .borrowed x := by
  obtain ⟨q, h1, _, ⟨_, h3⟩ | ⟨_, a, h3⟩⟩ := m.chunk_run hd
  · have hb : (P.bytesDirect len : P β (Option (Nat × List Byte))) p = _ := P.bind_err h3
    have e1 : (Heap.bytes len : P β (Cow Byte)) p = _ := P.bind_err hb
    have e2 : (P.bytes len : P β (Cow Byte)) p = _ := P.bind_err hb
    rw [e1, e2]
    exact ⟨rfl, nofun⟩
  · by_cases hl : d.length < len
    · have hb : (P.bytesDirect len : P β (Option (Nat × List Byte))) p = ⟨.ok none, q, []⟩ := by
        have e : (P.bytesDirect len : P β (Option (Nat × List Byte))) p = _ := P.bind_nil h3
        rw [e]
        show (if d.length < len then (Pure.pure none : P β (Option (Nat × List Byte))) else _) q = _
        rw [if_pos hl]
        rfl
      have hh : (P.hint : P β (Option Nat)) q = ⟨.ok (some d.length), q, []⟩ := by
        rw [← m.hint d _ h1]; rfl
      have hc : (P.safeCapacityBound 1 : P β Nat) q = ⟨.ok d.length, q, []⟩ := by
        have e : (P.safeCapacityBound 1 : P β Nat) q = _ := P.bind_nil hh
        rw [e]
        show (⟨.ok (d.length / 1), q, []⟩ : Out β Nat) = _
        rw [Nat.div_one]
      have hf : P.fuel q = ⟨.ok (ParseBuf.steps q.data + 1), q, []⟩ := rfl
      have ha : P.alloc (min d.length len) q = ⟨.ok (), q, [min d.length len]⟩ := rfl
      have hs : (Heap.bytesSlow len : P β (List Byte)) q = P.bytesSlow len q := by
        have e1 : (Heap.bytesSlow len : P β (List Byte)) q = _ := P.bind_nil hc
        have e2 : (P.bytesSlow len : P β (List Byte)) q = _ := P.bind_nil hc
        rw [e1, e2, P.bind_ok ha, P.bind_ok ha, P.bind_nil hf, P.bind_nil hf,
          bytesSlowLoop m.toOnePiece _ len [] (min d.length len) q d h1 (by simp only [List.length_nil]; omega)]
      have hg : P.hintAtLeast (some d.length) len = false := decide_eq_false (by omega)
      have e1 : (Heap.bytes len : P β (Cow Byte)) p = _ := P.bind_nil hb
      have e2 : (P.bytes len : P β (Cow Byte)) p = _ := P.bind_nil hb
      have e3 : ∀ (x : P β (List Byte)), ((P.hint >>= fun h => if P.hintAtLeast h len = true then
          (P.alloc len >>= fun _ => P.toSlice len >>= fun bs => Pure.pure (Cow.owned bs)) else
          (x >>= fun bs => Pure.pure (Cow.owned bs))) : P β (Cow Byte)) q = (x >>= fun bs => Pure.pure (Cow.owned bs)) q := by
        intro x
        rw [P.bind_nil hh, hg]
        rfl
      have e4 := e1.trans (e3 _)
      have e5 := e2.trans (e3 _)
      -- too short: the copy runs into the end
      have hfail : ∀ fuel, ∃ e q' l, (P.bytesSlowLoop fuel len [] : P β (List Byte)) q = ⟨.error e, q', l⟩ := by
        intro fuel
        have hlen : ∀ a, ((P.bytesSlowLoop fuel len [] : P β (List Byte)) q).res = .ok a → False := by
          intro a ha
          have he := (Eats.bytesSlowLoop (m.toOnePiece.stable (q.data.offset + d.length)) fuel len [] q ⟨d, h1, rfl⟩)
          obtain ⟨⟨d', _, h6⟩, _, _, h7⟩ := he
          have := h7 a ha
          omega
        rcases hx : ((P.bytesSlowLoop fuel len [] : P β (List Byte)) q).res with e | a
        · exact ⟨e, _, _, P.run_eq _ hx⟩
        · exact (hlen a hx).elim
      obtain ⟨e, q', l, hx⟩ := hfail (ParseBuf.steps q.data + 1)
      have hsl : (P.bytesSlow len : P β (List Byte)) q = ⟨.error e, q', min d.length len :: l⟩ := by
        have e2 : (P.bytesSlow len : P β (List Byte)) q = _ := P.bind_nil hc
        rw [e2, P.bind_ok ha, P.bind_nil hf, hx]
        rfl
      have hsl' := hs.trans hsl
      rw [P.bind_err hsl'] at e4
      rw [P.bind_err hsl] at e5
      rw [e4, e5]
      exact ⟨rfl, nofun⟩
    · have hb : (P.bytesDirect len : P β (Option (Nat × List Byte))) p =
          (P.advance len >>= fun _ => Pure.pure (some (a, d.take len)) : P β (Option (Nat × List Byte))) q := by
        have e : (P.bytesDirect len : P β (Option (Nat × List Byte))) p = _ := P.bind_nil h3
        rw [e]
        show (if d.length < len then (Pure.pure none : P β (Option (Nat × List Byte))) else _) q = _
        rw [if_neg hl]
      rcases m.advance_run h1 len with h4 | ⟨q', h4, _⟩
      · rw [P.bind_err h4] at hb
        have e1 : (Heap.bytes len : P β (Cow Byte)) p = _ := P.bind_err hb
        have e2 : (P.bytes len : P β (Cow Byte)) p = _ := P.bind_err hb
        rw [e1, e2]
        exact ⟨rfl, nofun⟩
      · rw [P.bind_nil h4] at hb
        have e1 : (Heap.bytes len : P β (Cow Byte)) p = _ := P.bind_nil hb
        have e2 : (P.bytes len : P β (Cow Byte)) p = _ := P.bind_nil hb
        rw [e1, e2]
        exact ⟨rfl, fun c hc => ⟨_, (Except.ok.inj hc).symm⟩⟩

theorem bytes (m : Measured J) (len : Nat) : Snug J (Heap.bytes len : P β (Cow Byte)) (P.bytes len) := fun N p hp =>
  ⟨(bytes_run m len p hp.choose hp.choose_spec.1).1, (Inv.bytes (m.toOnePiece.stable N) len p hp).1⟩

theorem rest (m : Measured J) : Snug J (Heap.rest : P β (Cow Byte)) P.rest := by
  refine fun N p hp => ⟨?_, (Inv.rest (m.toOnePiece.stable N) p hp).1⟩
  obtain ⟨d, hd, _⟩ := hp
  obtain ⟨q, h1, _, ⟨_, h3⟩ | ⟨_, a, h3⟩⟩ := m.chunk_run hd
  · have e1 : (Heap.rest : P β (Cow Byte)) p = _ := P.bind_err h3
    have e2 : (P.rest : P β (Cow Byte)) p = _ := P.bind_err h3
    rw [e1, e2]
  · have e1 : (Heap.rest : P β (Cow Byte)) p = _ := P.bind_nil h3
    have e2 : (P.rest : P β (Cow Byte)) p = _ := P.bind_nil h3
    have ht : (P.toCow ⟨.external a, d⟩ : P β (Cow Byte)) q = ⟨.ok (.borrowed d), q, []⟩ := rfl
    rw [e1, e2, P.bind_nil ht, P.bind_nil ht]
    show (P.advance d.length >>= _) q = (P.advance d.length >>= _) q
    rcases m.advance_run h1 d.length with h4 | ⟨q', h4, _, h5, _⟩
    · rw [P.bind_err h4, P.bind_err h4]
    · rw [P.bind_nil h4, P.bind_nil h4]
      have hf : P.fuel q' = ⟨.ok (ParseBuf.steps q'.data + 1), q', []⟩ := rfl
      rw [P.bind_nil hf, P.bind_nil hf]
      rw [List.drop_length] at h5
      obtain ⟨q'', _, _, ⟨_, h6⟩ | ⟨h6, _⟩⟩ := m.chunk_run h5
      · have hc : (P.chunkResult : P β (Except ParseError Chunk)) q' = ⟨.ok (.error .eof), q'', []⟩ := by
          have e1 : (ParseBuf.chunk q'.data).1 = .error (.err .eof) := congrArg Out.res h6
          have e2 : ({ q' with data := (ParseBuf.chunk q'.data).2 } : Parser β) = q'' := congrArg Out.st h6
          unfold P.chunkResult
          rw [e1]
          simp only
          rw [e2]
        have f1 : ∀ c k, (Heap.restLoop (k + 1) (.borrowed d) c : P β (Cow Byte)) q' = _ := fun _ _ => P.bind_nil hc
        have f2 : ∀ k, (P.restLoop (k + 1) (.borrowed d) : P β (Cow Byte)) q' = _ := fun _ => P.bind_nil hc
        rw [f1, f2]
      · exact (h6 rfl).elim

omit [ParseBuf β] in
/-- The vector has room for as many elements as the bytes left can make. -/
theorem repeatedLoop {size : Nat} (hs : 0 < size) {item : P β T} (h : ∀ N, Eats (Intact J N) size item) :
    ∀ (n count cap N : Nat) (p : Parser β), Intact J N p → count + min n ((N - p.data.offset) / size) ≤ cap →
      (Heap.repeatedLoop size item n count cap : P β (List T)) p = P.repeatedLoop item n p
  | 0, _, _, _, _, _, _ => rfl
  | n + 1, count, cap, N, p, hp, hc => by
    obtain ⟨h1, h2, h3, h4⟩ := h N p hp
    rcases hm : (item p).res with e | a
    · have e1 : (Heap.repeatedLoop size item (n + 1) count cap : P β (List T)) p = _ := P.bind_err (P.run_eq _ hm)
      have e2 : (P.repeatedLoop item (n + 1) : P β (List T)) p = _ := P.bind_err (P.run_eq _ hm)
      rw [e1, e2]
    · have h5 := h4 a hm
      have he := P.run_eq _ hm
      rw [h2] at he
      have e1 : (Heap.repeatedLoop size item (n + 1) count cap : P β (List T)) p = _ := P.bind_nil he
      have e2 : (P.repeatedLoop item (n + 1) : P β (List T)) p = _ := P.bind_nil he
      rw [e1, e2]
      have hI := h1
      obtain ⟨d', _, hN⟩ := h1
      generalize (item p).st = q at *
      have hdiv : (N - q.data.offset) / size + 1 ≤ (N - p.data.offset) / size := by
        have : (N - q.data.offset) / size + 1 = (N - q.data.offset + size) / size := (Nat.add_div_right _ hs).symm
        rw [this]
        exact Nat.div_le_div_right (by omega)
      generalize (N - p.data.offset) / size = A at hc hdiv
      have hr := Heap.reserve_run (β := β) size cap (count + 1) q
      rw [if_pos (by clear hN; generalize (N - q.data.offset) / size = B at hdiv; omega)] at hr
      rw [P.bind_nil hr]
      have ih := repeatedLoop hs h n (count + 1) cap N q hI (by omega)
      rcases hx : ((P.repeatedLoop item n : P β (List T)) q).res with e | xs
      · rw [P.bind_err (P.run_eq _ (ih ▸ hx)), P.bind_err (P.run_eq _ hx), ih]
      · rw [P.bind_ok (P.run_eq _ (ih ▸ hx)), P.bind_ok (P.run_eq _ hx), ih]

theorem slice (m : Measured J) (e : Elem T) (he : 0 < e.size) {item : P β T} (h : ∀ N, Eats (Intact J N) e.size item) (len : Nat) :
    Snug J (Heap.slice e item len : P β (Cow T)) (P.slice e item len) := by
  refine bind (of_eats fun N => Eats.sliceDirect (m.toOnePiece.stable N) e len) fun x => ?_
  split
  · exact pure _
  · refine bind (fun N p hp => ⟨?_, (Inv.skip (Inv.safeCapacityBound _) (fun _ => Inv.skip (Inv.alloc _) fun _ =>
      Inv.repeatedLoop (fun p hp => ⟨(h N p hp).1, fun _ _ => trivial⟩) len) p hp).1⟩) fun _ => pure _
    obtain ⟨d, hd, hN⟩ := id hp
    have hh : (P.hint : P β (Option Nat)) p = ⟨.ok (some d.length), p, []⟩ := by
      rw [← m.hint d _ hd]; rfl
    have hc : (P.safeCapacityBound e.size : P β Nat) p = ⟨.ok (d.length / e.size), p, []⟩ := by
      have h0 : ¬ e.size = 0 := by omega
      show (if e.size = 0 then (Pure.pure (usizeLimit - 1) : P β Nat) else
        (P.hint >>= fun h => Pure.pure (h.getD 16384 / e.size))) p = _
      rw [if_neg h0, P.bind_nil hh]
      rfl
    have ha : P.alloc (min len (d.length / e.size) * e.size) p = ⟨.ok (), p, [min len (d.length / e.size) * e.size]⟩ := rfl
    have e1 : (Heap.repeated e.size item len : P β (List T)) p = _ := P.bind_nil hc
    have e2 : (P.repeated e.size item len : P β (List T)) p = _ := P.bind_nil hc
    rw [e1, e2, P.bind_ok ha, P.bind_ok ha, repeatedLoop he h len 0 _ N p hp ?_]
    have : N - p.data.offset = d.length := by omega
    rw [this]
    omega

theorem textPoke (m : Measured J) : Snug J (parseTextPoke : Heap β (TextPoke Cow)) (parseTextPoke : P β (TextPoke Cow)) := by
  refine bind (of_eats fun N => Eats.u64 (m.toOnePiece.stable N)) fun _ => bind (of_eats fun N => Eats.u16 (m.toOnePiece.stable N)) fun a =>
    bind (of_eats fun N => Eats.u16 (m.toOnePiece.stable N)) fun b => ?_
  suffices h : ∀ len n (k : Cow Byte × Cow Byte → TextPoke Cow), Snug J
      (Heap.bytes len >>= fun d => Heap.cowSplitAt d n >>= fun x => Pure.pure (k x) : P β (TextPoke Cow))
      (P.bytes len >>= fun d => (ParserM.cowSplitAt d n : P β (Cow Byte × Cow Byte)) >>= fun x => Pure.pure (k x)) from
    h (roundUpMod (a.toNat + b.toNat) 4 8) a.toNat fun x => _
  intro len n k N p hp
  obtain ⟨h1, h2⟩ := bytes m len N p hp
  have h3 := (bytes_run m len p hp.choose hp.choose_spec.1).2
  rcases hm : ((P.bytes len : P β (Cow Byte)) p).res with e | c
  · rw [P.bind_err (P.run_eq _ hm)]
    refine ⟨?_, h2⟩
    rw [P.bind_err (P.run_eq _ (h1 ▸ hm)), h1]
  · obtain ⟨x, rfl⟩ := h3 c hm
    rw [P.bind_ok (P.run_eq _ hm), P.bind_ok (P.run_eq _ (h1 ▸ hm)), h1]
    have hs : (Heap.cowSplitAt (.borrowed x) n : P β (Cow Byte × Cow Byte)) = ParserM.cowSplitAt (.borrowed x) n := by
      by_cases hn : n ≤ x.length
      · have h0 : (Cow.borrowed x).splitAt n = some (.borrowed (x.take n), .borrowed (x.drop n)) := if_pos hn
        simp only [Heap.cowSplitAt, ParserM.cowSplitAt, h0]
      · have h0 : (Cow.borrowed x).splitAt n = none := if_neg hn
        simp only [Heap.cowSplitAt, ParserM.cowSplitAt, h0]
    rw [hs]
    refine ⟨rfl, ?_⟩
    exact (Inv.skip (R := fun _ => True) (Inv.cowSplitAt (.borrowed x) n) (fun _ => Inv.pure trivial) _ h2).1

theorem padded (o : OnePiece J) (n : Nat) {m m' : P β α} (h : Snug J m m') : Snug J (P.padded n m) (P.padded n m') :=
  ite (fun _ => fault _) fun _ => bind (of_eats fun _ => Eats.offset) fun _ => bind h fun _ =>
    bind (of_eats fun _ => Eats.offset) fun _ => ite (fun _ => pure _) fun _ =>
      bind (of_eats fun N => Eats.bytesIgnored (o.stable N) _) fun _ => pure _

/-- Every record body. -/
theorem kin (m : Measured J) : Kin (β := β) (fun a b => Snug J a b) where
  pure _ := pure _
  bind h hk := bind h hk
  fail _ := fault _
  config := of_eats fun _ => Eats.config
  array n := of_eats fun N => Eats.array (m.toOnePiece.stable N) n
  bytes := bytes m
  rest := rest m
  padded h := padded m.toOnePiece 8 h
  words := slice m U64.elem (by decide) (fun N => Eats.u64 (m.toOnePiece.stable N))
  entries := slice m NamespaceEntry.elem (by decide) (fun N => Eats.namespaceEntry (m.toOnePiece.stable N))
  branches := slice m BranchEntry.elem (by decide) (fun N => Eats.branchEntry (m.toOnePiece.stable N))
  textPoke := textPoke m

theorem dispatch {O : Type} (m : Measured J) (v : Visitor Cow O) (md : Metadata) :
    Snug J (Heap.dispatch v md : P β O) (P.dispatch v md) := by
  rw [P.dispatch_eq]
  exact bind ((kin m).body md.ty) fun _ _ p hp => ⟨rfl, hp⟩

end Snug

/-! ## Splitting off a record -/

/-- At most `n` requests, each for two slots. -/
def Slots (n : Nat) (Q : α → Prop) (m : P β α) (p : Parser β) : Prop :=
  (∃ k, k ≤ n ∧ (m p).log = List.replicate k 48) ∧ ∀ a, (m p).res = .ok a → Q a

namespace Slots
variable {p : Parser β} {n k : Nat} {Q : α → Prop} {R : α' → Prop}

theorem pure {a : α} (h : Q a) : Slots 0 Q (Pure.pure a : P β α) p := ⟨⟨0, Nat.le_refl _, rfl⟩, fun _ e => Except.ok.inj e ▸ h⟩
theorem fault (e : Fault) : Slots 0 Q (P.fault e : P β α) p := ⟨⟨0, Nat.le_refl _, rfl⟩, nofun⟩
theorem mono {m : P β α} (h : Slots n Q m p) (hn : n ≤ k) : Slots k Q m p := by
  obtain ⟨⟨i, h1, h2⟩, h3⟩ := h
  exact ⟨⟨i, by omega, h2⟩, h3⟩

theorem bind {m : P β α} {f : α → P β α'} (h : Slots n Q m p) (hf : ∀ a, Q a → Slots k R (f a) (m p).st) :
    Slots (n + k) R (m >>= f) p := by
  obtain ⟨⟨i, h1, h2⟩, h3⟩ := h
  rcases hm : (m p).res with e | a
  · have hr := P.bind_err (k := f) (P.run_eq _ hm)
    rw [Slots, hr]
    exact ⟨⟨i, by omega, h2⟩, nofun⟩
  · obtain ⟨⟨j, h4, h5⟩, h6⟩ := hf a (h3 a hm)
    have hr := P.bind_ok (k := f) (P.run_eq _ hm)
    rw [Slots, hr]
    refine ⟨⟨i + j, by omega, ?_⟩, h6⟩
    rw [h2, h5, List.replicate_append_replicate]

theorem onChild {δ : Type} {m : P δ α} {c : Parser δ} (h : Slots n Q m c) : Slots n (fun x => Q x.1) (P.onChild c m : P β (α × Parser δ)) p := by
  obtain ⟨h1, h2⟩ := h
  rcases hm : (m c).res with e | a
  · rw [Slots, P.onChild_err (P.run_eq _ hm)]
    exact ⟨h1, nofun⟩
  · rw [Slots, P.onChild_ok (P.run_eq _ hm)]
    exact ⟨h1, fun x hx => Except.ok.inj hx ▸ h2 a hm⟩

end Slots

/-- The buffer of a record split off from one piece of memory. -/
def Solid (len : Nat) (c : Cursor) : Prop :=
  c.offset = 0 ∧ c.len = len ∧ ((len = 0 ∧ c.chunks = []) ∨ ∃ a x, 0 < len ∧ c.chunks = [⟨.external a, x⟩] ∧ x.length = len)

section
variable [ParseBuf β] {J : List Byte → β → Prop}

/-- With nothing left, there is nothing to add. -/
theorem Heap.cursorLoop_end (o : OnePiece J) (fuel len : Nat) (cs : List Chunk) (cap : Nat) (p : Parser β) (h : J [] p.data.buf) :
    ((Heap.cursorLoop fuel len cs cap : P β (List Chunk)) p).log = [] ∧
    ∀ x, ((Heap.cursorLoop fuel len cs cap : P β (List Chunk)) p).res = .ok x → len = 0 ∧ x = cs := by
  cases fuel with
  | zero => exact ⟨rfl, nofun⟩
  | succ fuel =>
    unfold Heap.cursorLoop
    by_cases h0 : len = 0
    · rw [if_pos h0]
      exact ⟨rfl, fun x hx => ⟨h0, (Except.ok.inj hx).symm⟩⟩
    · rw [if_neg h0]
      obtain ⟨q, _, _, ⟨_, h3⟩ | ⟨h3, _⟩⟩ := o.chunk_run h
      · rw [P.bind_err h3]
        exact ⟨rfl, nofun⟩
      · exact (h3 rfl).elim

/-- One chunk is enough, and it is borrowed. -/
theorem Heap.cursorLoop_one (o : OnePiece J) (fuel len : Nat) (p : Parser β) (d : List Byte) (h : J d p.data.buf) :
    ((Heap.cursorLoop fuel len [] 2 : P β (List Chunk)) p).log = [] ∧
    ∀ x, ((Heap.cursorLoop fuel len [] 2 : P β (List Chunk)) p).res = .ok x →
      (len = 0 ∧ x = []) ∨ ∃ a y, 0 < len ∧ x = [⟨.external a, y⟩] ∧ y.length = len := by
  cases fuel with
  | zero => exact ⟨rfl, nofun⟩
  | succ fuel =>
    unfold Heap.cursorLoop
    by_cases h0 : len = 0
    · rw [if_pos h0]
      exact ⟨rfl, fun x hx => .inl ⟨h0, (Except.ok.inj hx).symm⟩⟩
    · rw [if_neg h0]
      obtain ⟨q, h1, _, ⟨_, h3⟩ | ⟨hd, a, h3⟩⟩ := o.chunk_run h
      · rw [P.bind_err h3]
        exact ⟨rfl, nofun⟩
      · rw [P.bind_nil h3]
        have hd' : 0 < d.length := List.length_pos_iff.2 hd
        obtain ⟨y, hy, hl⟩ : ∃ y, (⟨.external a, d⟩ : Chunk).truncate len = ⟨.external a, y⟩ ∧ y.length = min len d.length := by
          unfold Chunk.truncate
          split
          · rename_i h
            exact ⟨d, rfl, by simp only at h; omega⟩
          · exact ⟨d.take len, rfl, List.length_take⟩
        rw [hy]
        have hp : (Heap.pushChunk ⟨.external a, y⟩ [] 2 : P β (List Chunk × Nat)) q = ⟨.ok ([⟨.external a, y⟩], 2), q, []⟩ := by
          unfold Heap.pushChunk
          rw [if_pos (by show 0 < y.length; omega)]
          rfl
        rw [P.bind_nil hp]
        show ((P.advance y.length >>= fun _ => Heap.cursorLoop fuel (len - y.length) [⟨.external a, y⟩] 2 : P β (List Chunk)) q).log = [] ∧
          ∀ x, ((P.advance y.length >>= fun _ => Heap.cursorLoop fuel (len - y.length) [⟨.external a, y⟩] 2 : P β (List Chunk)) q).res = .ok x → _
        rcases o.advance_run h1 y.length with h4 | ⟨q', h4, h5, h6, _⟩
        · rw [P.bind_err h4]
          exact ⟨rfl, nofun⟩
        · rw [P.bind_nil h4]
          by_cases hle : len ≤ d.length
          · have hz : len - y.length = 0 := by omega
            rw [hz]
            cases fuel with
            | zero => exact ⟨rfl, nofun⟩
            | succ fuel =>
              unfold Heap.cursorLoop
              rw [if_pos rfl]
              exact ⟨rfl, fun x hx => .inr ⟨a, y, by omega, (Except.ok.inj hx).symm, by omega⟩⟩
          · have hz : d.drop y.length = [] := List.drop_of_length_le (by omega)
            rw [hz] at h6
            obtain ⟨g1, g2⟩ := Heap.cursorLoop_end o fuel (len - y.length) [⟨.external a, y⟩] 2 q' h6
            exact ⟨g1, fun x hx => by have := (g2 x hx).1; omega⟩

theorem Heap.splitAt_one (o : OnePiece J) (len : Nat) (p : Parser β) (d : List Byte) (h : J d p.data.buf) :
    Slots 1 (fun c => Solid len c.data.buf) (Heap.splitAt len : P β (Parser Cursor)) p := by
  have hf : Slots (β := β) 0 (fun _ => True) P.fuel p := ⟨⟨0, Nat.le_refl _, rfl⟩, fun _ _ => trivial⟩
  have hg : ∀ q : Parser β, Slots 0 (fun _ => True) P.config q := fun _ => ⟨⟨0, Nat.le_refl _, rfl⟩, fun _ _ => trivial⟩
  have ha : Slots (β := β) 1 (fun _ => True) (P.alloc (2 * slotSize)) p := ⟨⟨1, Nat.le_refl _, rfl⟩, fun _ _ => trivial⟩
  have hc : Slots 1 (Solid len) (Heap.newCursor len : P β Cursor) p := by
    refine Slots.bind (k := 0) ha fun _ _ => Slots.bind (n := 0) (k := 0) hf fun n _ => ?_
    obtain ⟨h1, h2⟩ := Heap.cursorLoop_one o n len p d h
    refine Slots.bind (n := 0) (k := 0) (Q := fun x : List Chunk => (len = 0 ∧ x = []) ∨ ∃ (a : Nat) (y : List Byte), 0 < len ∧ x = [⟨.external a, y⟩] ∧ y.length = len)
      ⟨⟨0, Nat.le_refl _, h1⟩, h2⟩ fun x hx => Slots.pure ⟨rfl, rfl, ?_⟩
    rcases hx with ⟨hx, rfl⟩ | ⟨a, y, hx, rfl, hy⟩
    · exact .inl ⟨hx, rfl⟩
    · exact .inr ⟨a, y, hx, rfl, hy⟩
  exact Slots.bind (k := 0) hc fun c hc => Slots.bind (n := 0) (k := 0) (hg _) fun cfg _ => Slots.pure hc

end

/-- A cursor over one borrowed piece of memory. -/
theorem OnePiece.cursor : OnePiece (fun d (c : Cursor) => (c.chunks = [] ∧ c.offset = 0 ∧ d = []) ∨
    ∃ a x, c.chunks = [⟨.external a, x⟩] ∧ c.offset < x.length ∧ d = x.drop c.offset) where
  chunk d c h := by
    refine ⟨h, ?_⟩
    show (_ ∧ c.chunk = _) ∨ (_ ∧ ∃ a, c.chunk = _)
    obtain ⟨cs, off, len⟩ := c
    rcases h with ⟨h1, h2, h3⟩ | ⟨a, x, h1, h2, h3⟩
    · simp only at h1
      subst h1
      exact .inl ⟨h3, rfl⟩
    · simp only at h1 h2 h3
      subst h1
      refine .inr ⟨fun h => ?_, a + off, ?_⟩
      · rw [h] at h3
        have := congrArg List.length h3
        simp only [List.length_nil, List.length_drop] at this
        omega
      · unfold Cursor.chunk
        simp only
        rw [if_pos (Nat.le_of_lt h2), h3]
  advance d c n c' h ha := by
    have ha : c.advance n = some c' := ha
    obtain ⟨cs, off, len⟩ := c
    unfold Cursor.advance at ha
    split at ha
    · cases ha
    split at ha
    · cases ha
    rcases h with ⟨h1, h2, h3⟩ | ⟨a, x, h1, h2, h3⟩
    · simp only at h1 h2
      subst h1 h2 h3
      simp only [Cursor.advanceSlow, Cursor.slowLoop] at ha
      split at ha
      · rename_i h
        cases ha
        exact ⟨by simp only [List.length_nil]; omega, .inl ⟨rfl, by omega, List.drop_nil⟩⟩
      · cases ha
    · simp only at h1 h2 h3
      subst h1 h3
      simp only at ha
      split at ha
      · rename_i h
        cases ha
        refine ⟨by rw [List.length_drop]; omega, .inr ⟨a, x, rfl, h, ?_⟩⟩
        rw [List.drop_drop]
      · rename_i h
        simp only [Cursor.advanceSlow, Cursor.slowLoop] at ha
        rw [if_neg (by omega)] at ha
        simp only at ha
        split at ha
        · cases ha
          refine ⟨by rw [List.length_drop]; omega, .inl ⟨rfl, by omega, ?_⟩⟩
          exact List.drop_of_length_le (by rw [List.length_drop]; omega)
        · cases ha

theorem Measured.slice : Measured (fun d (s : Slice) => s.data = d) where
  chunk d s h := by
    refine ⟨h, ?_⟩
    show (_ ∧ (if s.data = [] then _ else _) = _) ∨ (_ ∧ ∃ a, (if s.data = [] then _ else _) = _)
    rw [h]
    by_cases hd : d = []
    · exact .inl ⟨hd, if_pos hd⟩
    · exact .inr ⟨hd, s.addr, if_neg hd⟩
  advance d s n s' h ha := by
    have ha : (if n ≤ s.data.length then some (⟨s.addr + n, s.data.drop n⟩ : Slice) else none) = some s' := ha
    split at ha
    · cases ha
      subst h
      exact ⟨by assumption, rfl⟩
    · cases ha
  hint d s h := by subst h; rfl

/-- Nothing at all. -/
theorem Measured.hollow : Measured (fun d (c : Cursor) => d = [] ∧ c.chunks = [] ∧ c.offset = 0 ∧ c.len = 0) where
  chunk d c h := by
    refine ⟨h, .inl ⟨h.1, ?_⟩⟩
    show c.chunk = _
    unfold Cursor.chunk
    rw [h.2.1]
  advance d c n c' h ha := by
    have ha : c.advance n = some c' := ha
    obtain ⟨h1, h2, h3, h4⟩ := h
    obtain ⟨cs, off, len⟩ := c
    simp only at h2 h3 h4
    subst h1 h2 h3 h4
    unfold Cursor.advance at ha
    split at ha
    · cases ha
    split at ha
    · cases ha
    simp only [Cursor.advanceSlow, Cursor.slowLoop] at ha
    split at ha
    · cases ha
      exact ⟨by simp only [List.length_nil]; omega, List.drop_nil, rfl, by omega, rfl⟩
    · cases ha
  hint d c h := by
    show some c.len = _
    rw [h.2.2.2, h.1]
    rfl

theorem Heap.recordImpl_snug {γ O : Type} [ParseBuf γ] {J : List Byte → γ → Prop} (m : Measured J) (q : Parser γ) (d : List Byte)
    (hq : J d q.data.buf) (v : Visitor Cow O) (md : Metadata) (p : Parser β) :
    (Heap.recordImpl q v md : P β O) p = P.recordImpl q v md p := by
  have h := (Snug.dispatch m.tracking v md d.length (Parser.new q.data (q.config.withMisc md.misc)) ⟨d, hq, Nat.zero_add _⟩).1
  have e : (P.onChild (Parser.new q.data (q.config.withMisc md.misc)) (Heap.dispatch v md) : P β _) p =
      P.onChild (Parser.new q.data (q.config.withMisc md.misc)) (P.dispatch v md) p := by
    unfold P.onChild
    rw [h]
  show ((P.onChild (Parser.new q.data (q.config.withMisc md.misc)) (Heap.dispatch v md) : P β _) >>= fun r => Pure.pure r.1) p =
    ((P.onChild (Parser.new q.data (q.config.withMisc md.misc)) (P.dispatch v md) : P β _) >>= fun r => Pure.pure r.1) p
  rcases hx : ((P.onChild (Parser.new q.data (q.config.withMisc md.misc)) (P.dispatch v md) : P β (O × Parser (Tracking γ))) p).res with x | a
  · rw [P.bind_err (P.run_eq _ (e ▸ hx)), P.bind_err (P.run_eq _ hx), e]
  · rw [P.bind_ok (P.run_eq _ (e ▸ hx)), P.bind_ok (P.run_eq _ hx), e]

section
variable [ParseBuf β] {J : List Byte → β → Prop}

theorem Heap.metadata_one (o : OnePiece J) (h : Header) (p : Parser β) (d : List Byte) (hp : J d p.data.buf) :
    Slots 2 (fun x => ∃ len, Solid len x.1.data.buf) (Heap.metadataWithHeader h : P β (Parser Cursor × Metadata)) p := by
  unfold Heap.metadataWithHeader
  split
  · exact (Slots.fault _).mono (Nat.zero_le _)
  refine Slots.bind (n := 1) (k := 1) (Heap.splitAt_one o _ p d hp) fun rp hrp => ?_
  split
  · exact (Slots.pure ⟨_, hrp⟩).mono (Nat.zero_le _)
  split
  · exact (Slots.fault _).mono (Nat.zero_le _)
  obtain ⟨h1, h2, h3⟩ := hrp
  have hs : Slots 1 (fun c => Solid (h.size.toNat - 8 - SampleId.estimateLen rp.config) c.data.buf)
      (Heap.splitAt (h.size.toNat - 8 - SampleId.estimateLen rp.config) : P Cursor (Parser Cursor)) rp := by
    rcases h3 with ⟨h4, h5⟩ | ⟨a, x, h4, h5, h6⟩
    · exact Heap.splitAt_one OnePiece.cursor _ rp [] (.inl ⟨h5, h1, rfl⟩)
    · exact Heap.splitAt_one OnePiece.cursor _ rp x (.inr ⟨a, x, h5, by omega, by rw [h1]; rfl⟩)
  refine Slots.bind (n := 1) (k := 0) (Slots.onChild hs) fun x hx => ?_
  have hi : Slots 0 (fun _ => True) (parseSampleId : P Cursor SampleId) x.2 :=
    ⟨⟨0, Nat.le_refl _, (Eats.sampleId (β := Cursor) Costs.stable x.2 trivial).2.1⟩, fun _ _ => trivial⟩
  exact Slots.bind (n := 0) (k := 0) (Slots.onChild hi) fun _ _ => Slots.pure ⟨_, hx⟩

/-- A whole record, given its header: two requests of 48 bytes at most are added. -/
theorem Heap.record_one (o : OnePiece J) {O : Type} (v : Visitor Cow O) (h : Header) (p : Parser β) (d : List Byte) (hp : J d p.data.buf)
    (hf : ((P.metadataWithHeader h : P β (Parser Cursor × Metadata)) p).log = []) :
    ∃ k, k ≤ 2 ∧ (Heap.recordWithHeader v h p).log = List.replicate k 48 ++ (P.recordWithHeader v h p).log := by
  obtain ⟨⟨k, hk, hl⟩, hq⟩ := Heap.metadata_one o h p d hp
  obtain ⟨e1, e2, _⟩ := Erases.metadataWithHeader h p
  refine ⟨k, hk, ?_⟩
  rcases hm : ((P.metadataWithHeader h : P β (Parser Cursor × Metadata)) p).res with e | ⟨q, md⟩
  · have r1 : Heap.recordWithHeader v h p = _ := P.bind_err (P.run_eq _ (e1.trans hm))
    have r2 : P.recordWithHeader v h p = _ := P.bind_err (P.run_eq _ hm)
    rw [r1, r2]
    show _ = _ ++ ((P.metadataWithHeader h : P β (Parser Cursor × Metadata)) p).log
    rw [hf, List.append_nil]
    exact hl
  · obtain ⟨len, h1, h2, h3⟩ := hq _ (e1.trans hm)
    simp only at h1 h2 h3
    have r1 : Heap.recordWithHeader v h p = _ := P.bind_ok (P.run_eq _ (e1.trans hm))
    have r2 : P.recordWithHeader v h p = _ := P.bind_ok (P.run_eq _ hm)
    rw [r1, r2, hl, hf, e2]
    have body : ∀ m m' : P β O, (∀ st, m st = m' st) → ∀ st, List.replicate k 48 ++ (m st).log = List.replicate k 48 ++ ([] ++ (m' st).log) := by
      intro m m' hm st
      rw [hm st, List.nil_append]
    refine body (match q.data.buf.asSlice with
      | some data => Heap.recordImpl (Parser.new data q.config) v md
      | none => Heap.recordImpl q v md) (match q.data.buf.asSlice with
      | some data => P.recordImpl (Parser.new data q.config) v md
      | none => P.recordImpl q v md) (fun st => ?_) _
    rcases h3 with ⟨h4, h5⟩ | ⟨a, x, h4, h5, h6⟩
    · have hd : q.data.buf.asSlice = none := by unfold Cursor.asSlice; rw [h5]
      rw [hd]
      exact Heap.recordImpl_snug Measured.hollow q [] ⟨rfl, h5, h1, by omega⟩ v md st
    · have hd : q.data.buf.asSlice = some ⟨a, x⟩ := by unfold Cursor.asSlice; rw [h5]
      rw [hd]
      exact Heap.recordImpl_snug Measured.slice _ x rfl v md st

end
end Perf
