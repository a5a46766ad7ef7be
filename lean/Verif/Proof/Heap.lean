import Verif.Proof.Kin
import Verif.Proof.Dispatch
/-!
# The parser with every request for memory

`Erases m m'`: `m` does what `m'` does, and makes at least its requests. `Grows I K B m`: all requests of `m` together are
paid by `K` times the bytes it consumed, up to `B` if it fails.
-/
namespace Perf
variable {β : Type} {α α' T : Type}

/-! ## Same results -/

/-- The same result and the same parser afterwards, and at least the same requests. -/
def Erases (m m' : P β α) : Prop :=
  ∀ p, (m p).res = (m' p).res ∧ (m p).st = (m' p).st ∧ (m' p).log.Sublist (m p).log

namespace Erases

theorem refl (m : P β α) : Erases m m := fun _ => ⟨rfl, rfl, List.Sublist.refl _⟩

theorem bind {m m' : P β α} {k k' : α → P β α'} (h : Erases m m') (hk : ∀ a, Erases (k a) (k' a)) :
    Erases (m >>= k) (m' >>= k') := by
  intro p
  obtain ⟨h1, h2, h3⟩ := h p
  rcases hm : (m' p).res with e | a
  · rw [P.bind_err (P.run_eq _ (h1.trans hm)), P.bind_err (P.run_eq _ hm)]
    exact ⟨rfl, h2, h3⟩
  · rw [P.bind_ok (P.run_eq _ (h1.trans hm)), P.bind_ok (P.run_eq _ hm), h2]
    obtain ⟨g1, g2, g3⟩ := hk a (m' p).st
    exact ⟨g1, g2, h3.append g3⟩

/-- A step of `m` only, that returns and leaves the parser alone. -/
theorem extra {m : P β α} {k : α → P β α'} {m' : P β α'} (h : ∀ p, ∃ a l, m p = ⟨.ok a, p, l⟩) (hk : ∀ a, Erases (k a) m') :
    Erases (m >>= k) m' := by
  intro p
  obtain ⟨a, l, he⟩ := h p
  rw [P.bind_ok he]
  obtain ⟨g1, g2, g3⟩ := hk a p
  exact ⟨g1, g2, g3.trans (List.sublist_append_right _ _)⟩

theorem ite {c : Prop} [Decidable c] {a b a' b' : P β α} (h1 : c → Erases a a') (h2 : ¬ c → Erases b b') :
    Erases (if c then a else b) (if c then a' else b') := by
  by_cases h : c
  · rw [if_pos h, if_pos h]; exact h1 h
  · rw [if_neg h, if_neg h]; exact h2 h

/-- What `reserve` does. -/
theorem _root_.Perf.Heap.reserve_run (size cap need : Nat) (p : Parser β) : (Heap.reserve size cap need : P β Nat) p =
    if need ≤ cap then ⟨.ok cap, p, []⟩
    else ⟨.ok (grow (leastCap size) cap need), p, [grow (leastCap size) cap need * size]⟩ := by
  unfold Heap.reserve
  by_cases h : need ≤ cap
  · rw [if_pos h, if_pos h]; rfl
  · rw [if_neg h, if_neg h]; rfl

/-- What `to_cow` does. -/
theorem _root_.Perf.P.toCow_sum (c : Chunk) (p : Parser β) :
    ∃ l, (P.toCow c : P β (Cow Byte)) p = ⟨.ok c.toCow, p, l⟩ ∧ l.sum ≤ c.data.length := by
  unfold P.toCow
  rcases c.loc with _ | a
  · refine ⟨[c.data.length], rfl, ?_⟩
    simp
  · exact ⟨[], rfl, Nat.zero_le _⟩

/-- What storing a chunk does: the slots at least double when they run out. -/
theorem _root_.Perf.Heap.pushChunk_run (c : Chunk) (cs : List Chunk) (cap : Nat) (p : Parser β) :
    ∃ cs' cap' l l', (Heap.pushChunk c cs cap : P β (List Chunk × Nat)) p = ⟨.ok (cs', cap'), p, l ++ l'⟩ ∧
      (P.pushChunk c cs : P β (List Chunk)) p = ⟨.ok cs', p, l⟩ ∧ l.sum ≤ c.data.length ∧
      cs'.length ≤ cs.length + c.data.length ∧
      (2 ≤ cap → cs.length ≤ cap → 2 ≤ cap' ∧ cs'.length ≤ cap' ∧ l'.sum + 48 * cap ≤ 48 * cap' ∧
        (cap' = cap ∨ cap' ≤ 2 * cs'.length)) := by
  unfold Heap.pushChunk P.pushChunk
  by_cases h : c.data.length > 0
  · rw [if_pos h, if_pos h]
    obtain ⟨l, ht, hl⟩ := P.toCow_sum (β := β) c p
    have h2 : (P.toCow c >>= fun _ => Pure.pure (c :: cs) : P β (List Chunk)) p = ⟨.ok (c :: cs), p, l ++ []⟩ := P.bind_ok ht
    have hr := Heap.reserve_run (β := β) slotSize cap (cs.length + 1) p
    by_cases hc : cs.length + 1 ≤ cap
    · rw [if_pos hc] at hr
      have h1 : (P.toCow c >>= fun _ => Heap.reserve slotSize cap (cs.length + 1) >>= fun cap => Pure.pure (c :: cs, cap) :
          P β (List Chunk × Nat)) p = ⟨.ok (c :: cs, cap), p, l ++ []⟩ := by
        rw [P.bind_ok ht, P.bind_ok hr]; rfl
      refine ⟨c :: cs, cap, l, [], h1, by rw [← List.append_nil l]; simpa using h2, hl, ?_, fun a b => ⟨a, ?_, ?_, .inl rfl⟩⟩
      · simp only [List.length_cons]; omega
      · simp only [List.length_cons]; omega
      · simp
    · rw [if_neg hc] at hr
      have h1 : (P.toCow c >>= fun _ => Heap.reserve slotSize cap (cs.length + 1) >>= fun cap => Pure.pure (c :: cs, cap) :
          P β (List Chunk × Nat)) p = ⟨.ok (c :: cs, grow (leastCap slotSize) cap (cs.length + 1)), p,
            l ++ [grow (leastCap slotSize) cap (cs.length + 1) * slotSize]⟩ := by
        rw [P.bind_ok ht, P.bind_ok hr]; rfl
      refine ⟨c :: cs, _, l, _, h1, by rw [← List.append_nil l]; simpa using h2, hl, ?_, fun a b => ?_⟩
      · simp only [List.length_cons]; omega
      · have hg : grow (leastCap slotSize) cap (cs.length + 1) = 2 * cap := by
          show max (max (2 * cap) (cs.length + 1)) 4 = _
          omega
        rw [hg]
        simp only [List.length_cons, List.sum_cons, List.sum_nil, slotSize]
        omega
  · rw [if_neg h, if_neg h]
    exact ⟨cs, cap, [], [], rfl, rfl, Nat.zero_le _, by omega, fun a b => ⟨a, b, by simp, .inl rfl⟩⟩

theorem reserve {k : Nat → P β α} {m' : P β α} (size cap need : Nat) (hk : ∀ c, Erases (k c) m') :
    Erases (Heap.reserve size cap need >>= k) m' := by
  refine extra (fun p => ?_) hk
  rw [Heap.reserve_run]
  split
  · exact ⟨_, _, rfl⟩
  · exact ⟨_, _, rfl⟩

theorem toMut {k : Nat → P β α} {m' : P β α} (b : Cow Byte) (cap : Nat) (hk : ∀ c, Erases (k c) m') :
    Erases (Heap.toMut b cap >>= k) m' := by
  refine extra (fun p => ?_) hk
  cases b with
  | borrowed d => exact ⟨_, _, rfl⟩
  | owned d => exact ⟨_, _, rfl⟩

theorem alloc {n : Nat} {k : Unit → P β α} {m' : P β α} (hk : Erases (k ()) m') : Erases (P.alloc n >>= k) m' :=
  extra (fun _ => ⟨_, _, rfl⟩) fun _ => hk

theorem onChild {δ : Type} {m m' : P δ α} (h : Erases m m') (c : Parser δ) :
    Erases (P.onChild c m : P β (α × Parser δ)) (P.onChild c m') := by
  intro p
  obtain ⟨h1, h2, h3⟩ := h c
  unfold P.onChild
  simp only
  rw [h1, h2]
  split <;> exact ⟨rfl, rfl, h3⟩

variable [ParseBuf β]

theorem cursorLoop : ∀ (fuel len : Nat) (cs : List Chunk) (cap : Nat),
    Erases (Heap.cursorLoop fuel len cs cap : P β (List Chunk)) (P.cursorLoop fuel len cs)
  | 0, _, _, _ => refl _
  | fuel + 1, len, cs, cap => by
    refine ite (fun _ => refl _) fun _ => bind (refl _) fun c p => ?_
    obtain ⟨cs', cap', l, l', h1, h2, _⟩ := Heap.pushChunk_run (β := β) (c.truncate len) cs cap p
    rw [P.bind_ok h1, P.bind_ok h2]
    obtain ⟨g1, g2, g3⟩ := bind (refl (P.advance (c.truncate len).data.length : P β Unit))
      (fun _ => cursorLoop fuel (len - (c.truncate len).data.length) cs' cap') p
    exact ⟨g1, g2, (List.sublist_append_left _ _).append g3⟩

theorem splitAt (len : Nat) : Erases (Heap.splitAt len : P β (Parser Cursor)) (P.splitAt len) :=
  bind (alloc (bind (refl _) fun _ => bind (cursorLoop _ _ _ _) fun _ => refl _)) fun _ => refl _

theorem bytesSlowLoop : ∀ (fuel len : Nat) (bs : List Byte) (cap : Nat),
    Erases (Heap.bytesSlowLoop fuel len bs cap : P β (List Byte)) (P.bytesSlowLoop fuel len bs)
  | 0, _, _, _ => refl _
  | fuel + 1, _, _, _ => ite (fun _ => refl _) fun _ => bind (refl _) fun _ => reserve _ _ _ fun _ =>
    bind (refl _) fun _ => bytesSlowLoop fuel _ _ _

theorem bytes (len : Nat) : Erases (Heap.bytes len : P β (Cow Byte)) (P.bytes len) := by
  refine bind (refl _) fun x => ?_
  split
  · exact refl _
  · exact bind (refl _) fun _ => ite (fun _ => refl _) fun _ =>
      bind (bind (refl _) fun _ => bind (refl _) fun _ => bind (refl _) fun _ => bytesSlowLoop _ _ _ _) fun _ => refl _

theorem restLoop : ∀ (n : Nat) (c : Cow Byte) (cap : Nat), Erases (Heap.restLoop n c cap : P β (Cow Byte)) (P.restLoop n c)
  | 0, _, _ => refl _
  | n + 1, c, cap => by
    refine bind (refl _) fun r => ?_
    split
    · exact toMut _ _ fun _ => reserve _ _ _ fun _ => bind (refl _) fun _ => restLoop n _ _
    · exact refl _

theorem rest : Erases (Heap.rest : P β (Cow Byte)) P.rest :=
  bind (refl _) fun _ => bind (refl _) fun _ => bind (refl _) fun _ => bind (refl _) fun _ => restLoop _ _ _

omit [ParseBuf β] in
theorem repeatedLoop (size : Nat) (item : P β T) : ∀ n count cap, Erases (Heap.repeatedLoop size item n count cap) (P.repeatedLoop item n)
  | 0, _, _ => refl _
  | n + 1, _, _ => bind (refl _) fun _ => reserve _ _ _ fun _ => bind (repeatedLoop size item n _ _) fun _ => refl _

theorem slice (e : Elem T) (item : P β T) (n : Nat) : Erases (Heap.slice e item n) (P.slice e item n) := by
  refine bind (refl _) fun x => ?_
  split
  · exact refl _
  · exact bind (bind (refl _) fun _ => bind (refl _) fun _ => repeatedLoop _ _ _ _ _) fun _ => refl _

omit [ParseBuf β] in
theorem cowSplitAt [ParseBuf β] (c : Cow T) (n : Nat) :
    Erases (Heap.cowSplitAt c n : P β (Cow T × Cow T)) (ParserM.cowSplitAt c n) := by
  show Erases _ (match c.splitAt n with | some r => Pure.pure r | none => P.fault .panic)
  unfold Heap.cowSplitAt
  split
  · rename_i a b h
    rw [h]
    exact alloc (refl _)
  · rename_i r h
    rw [h]
    exact refl _
  · rename_i h
    rw [h]
    exact refl _

theorem padded (n : Nat) {m m' : P β α} (h : Erases m m') : Erases (P.padded n m) (P.padded n m') :=
  ite (fun _ => refl _) fun _ => bind (refl _) fun _ => bind h fun _ => refl _

/-- Every record body. -/
theorem kin : Kin (β := β) (fun m m' => Erases m m') where
  pure _ := refl _
  bind := bind
  fail _ := refl _
  config := refl _
  array _ := refl _
  bytes := bytes
  rest := rest
  padded := padded 8
  words := slice _ _
  entries := slice _ _
  branches := slice _ _
  textPoke := bind (refl (parseU64 : P β U64)) fun _ => bind (refl (parseU16 : P β U16)) fun _ =>
    bind (refl (parseU16 : P β U16)) fun _ => bind (bytes _) fun _ => bind (cowSplitAt _ _) fun _ => refl _

theorem dispatch {O : Type} (v : Visitor Cow O) (md : Metadata) : Erases (Heap.dispatch v md : P β O) (P.dispatch v md) := by
  rw [P.dispatch_eq]
  exact bind (kin.body md.ty) fun _ => refl _

omit [ParseBuf β] in
theorem recordImpl {γ O : Type} [ParseBuf γ] (q : Parser γ) (v : Visitor Cow O) (md : Metadata) :
    Erases (Heap.recordImpl q v md : P β O) (P.recordImpl q v md) :=
  bind (onChild (dispatch v md) _) fun _ => refl _

theorem metadataWithHeader (h : Header) :
    Erases (Heap.metadataWithHeader h : P β (Parser Cursor × Metadata)) (P.metadataWithHeader h) :=
  ite (fun _ => refl _) fun _ => bind (splitAt _) fun _ => ite (fun _ => refl _) fun _ => ite (fun _ => refl _) fun _ =>
    bind (onChild (splitAt _) _) fun _ => refl _

theorem recordWithHeader {O : Type} (v : Visitor Cow O) (h : Header) : Erases (Heap.recordWithHeader v h : P β O) (P.recordWithHeader v h) := by
  refine bind (metadataWithHeader h) fun r => ?_
  obtain ⟨q, md⟩ := r
  show Erases (match q.data.buf.asSlice with
    | some data => Heap.recordImpl (Parser.new data q.config) v md
    | none => Heap.recordImpl q v md) (match q.data.buf.asSlice with
    | some data => P.recordImpl (Parser.new data q.config) v md
    | none => P.recordImpl q v md)
  cases q.data.buf.asSlice with
  | some d => exact recordImpl _ _ _
  | none => exact recordImpl _ _ _

theorem record {O : Type} (v : Visitor Cow O) : Erases (Heap.record v : P β O) (P.record v) :=
  bind (refl _) fun h => recordWithHeader v h

end Erases
end Perf
