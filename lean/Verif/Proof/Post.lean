import Verif.Proof.RoundTrip
/-!
# What a successful parse returns, for any buffer whatsoever

`Post Q m`: whenever `m` returns a value it satisfies `Q`. Nothing is assumed of the buffer.
-/
namespace Perf
variable {β : Type} [ParseBuf β] {α α' : Type}

/-- Values returned by `m` satisfy `Q`. -/
def Post (Q : α → Prop) (m : P β α) : Prop := ∀ p a, (m p).res = .ok a → Q a

omit [ParseBuf β] in
theorem P.bind_res {m : P β α} {c : α → P β α'} {p : Parser β} {b : α'} (h : ((m >>= c) p).res = .ok b) :
    ∃ a, (m p).res = .ok a ∧ (c a (m p).st).res = .ok b := by
  rcases hm : (m p).res with e | a
  · rw [P.bind_err (P.run_eq _ hm)] at h; cases h
  · refine ⟨a, rfl, ?_⟩
    rw [P.bind_ok (P.run_eq _ hm)] at h
    exact h

omit [ParseBuf β] in
theorem Post.true (m : P β α) : Post (fun _ => True) m := fun _ _ _ => trivial

omit [ParseBuf β] in
theorem Post.bind {Q : α → Prop} {R : α' → Prop} {m : P β α} {c : α → P β α'} (h : Post Q m)
    (hc : ∀ a, Q a → Post R (c a)) : Post R (m >>= c) := by
  intro p b hb
  obtain ⟨a, h1, h2⟩ := P.bind_res hb
  exact hc a (h p a h1) _ b h2

omit [ParseBuf β] in
theorem Post.skip {R : α' → Prop} {m : P β α} {c : α → P β α'} (hc : ∀ a, Post R (c a)) : Post R (m >>= c) :=
  Post.bind (Post.true m) fun a _ => hc a

omit [ParseBuf β] in
theorem Post.pure {Q : α → Prop} {a : α} (h : Q a) : Post Q (Pure.pure a : P β α) := by
  intro p b hb
  rw [P.pure_run] at hb
  cases hb; exact h

omit [ParseBuf β] in
theorem Post.fail {Q : α → Prop} (e : ParseError) : Post Q (P.fail e : P β α) := by
  intro p b hb; cases hb

omit [ParseBuf β] in
theorem Post.mono {Q R : α → Prop} {m : P β α} (h : Post Q m) (hr : ∀ a, Q a → R a) : Post R m :=
  fun p a ha => hr a (h p a ha)

omit [ParseBuf β] in
theorem Post.ite {c : Prop} [Decidable c] {Q : α → Prop} {a b : P β α} (h1 : c → Post Q a) (h2 : ¬ c → Post Q b) :
    Post Q (if c then a else b) := by
  by_cases h : c
  · rw [if_pos h]; exact h1 h
  · rw [if_neg h]; exact h2 h

theorem Post.parseIf (c : Bool) (m : P β α) : Post (fun x => x.isSome = c) (Perf.parseIf c m) := by
  cases c with
  | true => exact Post.skip fun _ => Post.pure rfl
  | false => exact Post.pure rfl

theorem Post.parseIf_of {Q : α → Prop} (c : Bool) {m : P β α} (h : Post Q m) :
    Post (fun x => x.isSome = c ∧ ∀ a, x = some a → Q a) (Perf.parseIf c m) := by
  cases c with
  | true => exact Post.bind h fun a ha => Post.pure ⟨rfl, fun b hb => by cases hb; exact ha⟩
  | false => exact Post.pure ⟨rfl, nofun⟩

/-! ## Records -/

variable [Lawful β] {p : Parser β} {f : Flat}

/-- A `Record` returned by `parse_record` came from the body parser for the type in the header, run with the misc bits
of the header. -/
theorem P.parseRecord_produced (hp : RepP p f) {a : Record Cow} (ha : (P.parseRecord p).res = .ok a) :
    Record.OfType (headerAt f).type_ a ∧ Produced (headerAt f).type_ (f.cfg.withMisc (headerAt f).misc) a := by
  rcases P.record_run hp (recordVisitor Cow) with ⟨_, h, _⟩ | ⟨h8, q, hq, _, h⟩
  · have : (P.parseRecord p).res = .error (.err f.s.fin) := h
    rw [this] at ha; cases ha
  · have h0 : P.parseRecord p = P.recordWithHeader (recordVisitor Cow) (headerAt f) q := h
    rw [h0] at ha
    obtain ⟨_, _, h3⟩ := P.recordWithHeader_run hq (recordVisitor Cow) (headerAt f)
    have hbody : ∀ {r : Flat} {md : Metadata}, r.cfg = f.cfg → md.ty = (headerAt f).type_ → md.misc = (headerAt f).misc →
        BodyOk (recordVisitor Cow) md r (P.recordWithHeader (recordVisitor Cow) (headerAt f) q).res →
        Record.OfType (headerAt f).type_ a ∧ Produced (headerAt f).type_ (f.cfg.withMisc (headerAt f).misc) a := by
      intro r md hr h1 h2 hb
      rcases hb.2 with ⟨b, h5, h4⟩ | ⟨e', h4, h5⟩
      · rw [ha, recordVisitor_apply b md h5.1] at h4; cases h4
        rw [← h1, ← h2, ← hr]
        exact h5
      · rw [ha] at h4; cases h4
    rcases Spec.metadata_cases (headerAt f) (f.adv 8) with h | h | h | h | ⟨_, _, _, _, sid, g, _, h⟩
    · rw [h.2] at h3; simp only [ha] at h3; cases h3
    · rw [h.2.2] at h3; simp only [ha] at h3; cases h3
    · rw [h.2.2.2] at h3; exact hbody (by rfl) (by rfl) (by rfl) h3
    · rw [h.2.2.2.2] at h3; simp only [ha] at h3; cases h3
    · rw [h] at h3; exact hbody (by rfl) (by rfl) (by rfl) h3

/-- The constructor of a parsed body is the one for the type. -/
def Record.code : Record Cow → Option Nat
  | .mmap _ => some 1
  | .lost _ => some 2
  | .comm _ => some 3
  | .exit _ => some 4
  | .throttle _ => some 5
  | .unthrottle _ => some 6
  | .fork _ => some 7
  | .read _ => some 8
  | .sample _ => some 9
  | .mmap2 _ => some 10
  | .aux _ => some 11
  | .itraceStart _ => some 12
  | .lostSamples _ => some 13
  | .switch => some 14
  | .switchCpuWide _ => some 15
  | .namespaces _ => some 16
  | .ksymbol _ => some 17
  | .bpfEvent _ => some 18
  | .cgroup _ => some 19
  | .textPoke _ => some 20
  | .auxOutputHwId _ => some 21
  | .unknown .. => none

omit [Lawful β] in
theorem Post.body (ty : U32) : Post (fun a => ∀ n, a.code = some n → ty.toNat = n) (parseBody ty : P β (Record Cow)) := by
  unfold parseBody
  split <;> (refine Post.skip fun _ => Post.pure ?_; intro n hn; cases hn <;> assumption)

theorem Produced.sample {ty : U32} {cfg : ParseConfig} {s : Sample Cow} (h : Produced ty cfg (.sample s)) :
    ty = 9#32 ∧ ∃ (γ : Type) (_ : ParseBuf γ) (q : Parser γ), q.config = cfg ∧
      ((parseSample : P γ (Sample Cow)) q).res = .ok s := by
  obtain ⟨γ, _, q, h1, h2⟩ := h
  have hty : ty = 9#32 := BitVec.eq_of_toNat_eq (Post.body ty q _ h2 _ rfl)
  subst hty
  obtain ⟨a, h3, h4⟩ := P.bind_res (c := fun r : Sample Cow => (Pure.pure (Record.sample r) : P γ (Record Cow))) h2
  rw [P.pure_run] at h4; cases h4
  exact ⟨rfl, γ, _, q, h1, h3⟩

theorem Produced.mmap2 {ty : U32} {cfg : ParseConfig} {s : Mmap2 Cow} (h : Produced ty cfg (.mmap2 s)) :
    ty = 10#32 ∧ ∃ (γ : Type) (_ : ParseBuf γ) (q : Parser γ), q.config = cfg ∧
      ((parseMmap2 : P γ (Mmap2 Cow)) q).res = .ok s := by
  obtain ⟨γ, _, q, h1, h2⟩ := h
  have hty : ty = 10#32 := BitVec.eq_of_toNat_eq (Post.body ty q _ h2 _ rfl)
  subst hty
  obtain ⟨a, h3, h4⟩ := P.bind_res (c := fun r : Mmap2 Cow => (Pure.pure (Record.mmap2 r) : P γ (Record Cow))) h2
  rw [P.pure_run] at h4; cases h4
  exact ⟨rfl, γ, _, q, h1, h3⟩

theorem Produced.read {ty : U32} {cfg : ParseConfig} {s : Read} (h : Produced ty cfg (.read s)) :
    ty = 8#32 ∧ ∃ (γ : Type) (_ : ParseBuf γ) (q : Parser γ), q.config = cfg ∧
      ((parseRead : P γ (Read)) q).res = .ok s := by
  obtain ⟨γ, _, q, h1, h2⟩ := h
  have hty : ty = 8#32 := BitVec.eq_of_toNat_eq (Post.body ty q _ h2 _ rfl)
  subst hty
  obtain ⟨a, h3, h4⟩ := P.bind_res (c := fun r : Read => (Pure.pure (Record.read r) : P γ (Record Cow))) h2
  rw [P.pure_run] at h4; cases h4
  exact ⟨rfl, γ, _, q, h1, h3⟩

/-! ## Running a parser on encoded input -/

/-- Refinement and `Reads` together. -/
theorem Refines.reads {α₁ : Type} {R : α → α₁ → Prop} {m : P β α} {s : Spec α₁} (hr : Refines R m s) (hp : RepP p f)
    {nd : Needs} {k : Nat} {bs tl : List Byte} {a : α₁} (h : Reads f.cfg nd k s bs tl a)
    (he : nd.eof = true → f.s.fin.kind = .eof) (ha : nd.al = true → f.cfg.endian.isNative = true → AlMod f.s.al k)
    (hb : f.s.bytes = bs ++ tl) :
    ∃ b, (m p).res = .ok b ∧ R b a ∧ RepP (m p).st (f.adv bs.length) := by
  have h1 := hr p f hp
  rw [h f rfl he ha hb] at h1
  exact h1

/-- A parser that refines a flat one which reads `bs`, followed by anything. -/
theorem P.bind_reads {m : P β α} {s : Spec α} {c : α → P β α'} {r : Except Fault α'} (he : ((m >>= c) p).res = r)
    (hr : Refines Eq m s) (hp : RepP p f) {bs tl : List Byte} {a : α}
    (h : Reads f.cfg ⟨false, false⟩ 0 s bs tl a) (hb : f.s.bytes = bs ++ tl) :
    ∃ q, RepP q (f.adv bs.length) ∧ (f.adv bs.length).s.bytes = tl ∧ (c a q).res = r := by
  obtain ⟨b, h1, rfl, h2⟩ := Refines.reads hr hp h nofun nofun hb
  refine ⟨_, h2, by simp [hb], ?_⟩
  rw [← he, P.bind_ok (P.run_eq _ h1)]

end Perf
