import Verif.Props.Visit
import Verif.Props.Streams
import Verif.Props.Group
import Verif.Props.Parts
/-!
# What happens in the cases excluded by the `_partial` theorems

The `_false` theorems show one input each on which the code deviates. Here the deviation is determined for all inputs.
-/
namespace Perf
variable {β : Type} [ParseBuf β] [Lawful β] {p : Parser β} {f : Flat} {o : Order} {tl : List Byte} {α γ : Type}
  {cfg : ParseConfig}

/-- With the input `bs` and nothing behind it, the error at the end of the stream. -/
def Ends (cfg : ParseConfig) (s : Spec α) (bs : List Byte) : Prop :=
  ∀ f : Flat, f.cfg = cfg → f.s.bytes = bs → s f = .error (.err f.s.fin)

theorem Ends.first {s : Spec α} {k : α → Spec γ} {bs : List Byte} (h : Ends cfg s bs) : Ends cfg (s >>= k) bs := by
  intro f hc hb
  show Spec.bind s k f = _
  unfold Spec.bind
  rw [h f hc hb]

theorem Ends.bind {s : Spec α} {k : α → Spec γ} {bs tl : List Byte} {a : α}
    (h : Reads cfg ⟨false, false⟩ 0 s bs tl a) (hk : Ends cfg (k a) tl) : Ends cfg (s >>= k) (bs ++ tl) := by
  intro f hc hb
  show Spec.bind s k f = _
  unfold Spec.bind
  rw [h f hc nofun nofun hb]
  exact hk (f.adv bs.length) hc (by rw [Flat.adv_bytes, hb, List.drop_left])

theorem Ends.config {k : ParseConfig → Spec γ} {bs : List Byte} (hk : Ends cfg (k cfg) bs) :
    Ends cfg (ParserM.config (C := List) >>= k) bs := by
  intro f hc hb
  subst hc
  exact hk f rfl hb

theorem Ends.bytes (n : Nat) : Ends cfg (ParserM.bytes (C := List) n : Spec (List Byte)) [] := by
  intro f _ hb
  show Spec.bytes n f = _
  unfold Spec.bytes
  rw [if_pos hb]

theorem Ends.rest : Ends cfg (ParserM.rest (C := List) : Spec (List Byte)) [] := by
  intro f _ hb
  show Spec.rest f = _
  unfold Spec.rest
  rw [if_pos hb]

theorem Ends.slice {T : Type} (e : Elem T) (item : Spec T) {n : Nat} (hn : cfg.endian.isNative = true)
    (hl : n * e.size < usizeLimit) : Ends cfg (ParserM.slice (C := List) e item n : Spec (List T)) [] := by
  intro f hc hb
  show Spec.slice e item n f = _
  unfold Spec.slice
  rw [hc, if_pos hn, if_neg (by omega), if_pos hb]

/-- The code fails with that error. -/
theorem Refines.ends {R : α → γ → Prop} {m : P β α} {s : Spec γ} {bs : List Byte} (h : Refines R m s) (hp : RepP p f)
    (he : Ends f.cfg s bs) (hb : f.s.bytes = bs) : (m p).res = .error (.err f.s.fin) := by
  have h1 := h p f hp
  rw [he f rfl hb] at h1
  exact h1

/-! ## C48 -/

/-- **C48**, the excluded case, for all inputs: in native byte order an empty callchain, branch stack (without hardware
index) or register dump with nothing behind it is the error at the end of the stream. -/
theorem c48_list_at_end (hp : RepP p f) (hs : Src f.cfg o) (hn : f.cfg.endian.isNative = true) (hb : f.s.bytes = e64 o 0) :
    ((parseCallchain : P β (Cow U64)) p).res = .error (.err f.s.fin) ∧
    ((parseLbr false : P β (Cow BranchEntry × Option U64)) p).res = .error (.err f.s.fin) := by
  rw [← List.append_nil (e64 o 0)] at hb
  refine ⟨Refines.callchain.ends hp ?_ hb, (Refines.lbr false).ends hp ?_ hb⟩
  · exact Ends.bind (Reads.u64 hs 0) (Ends.slice _ _ hn (by decide))
  · exact Ends.bind (Reads.u64 hs 0) (Ends.bind (bs := []) (Reads.pure none) (Ends.first (Ends.slice _ _ hn (by decide))))

/-- The same for an empty stack or AUX area, in every byte order. -/
theorem c48_area_at_end (hp : RepP p f) (hs : Src f.cfg o) (hb : f.s.bytes = e64 o 0) :
    ((parseAuxData : P β (Cow Byte)) p).res = .error (.err f.s.fin) ∧
    ((parseStackUser : P β (Cow Byte)) p).res = .error (.err f.s.fin) := by
  rw [← List.append_nil (e64 o 0)] at hb
  refine ⟨Refines.auxData.ends hp ?_ hb, Refines.stackUser.ends hp ?_ hb⟩
  · exact Ends.bind (Reads.u64 hs 0) (Ends.bytes _)
  · exact Ends.bind (Reads.u64 hs 0) (Ends.first (Ends.bytes _))

/-- The same for a register dump whose mask is empty, whatever the ABI. -/
theorem c48_registers_at_end (hp : RepP p f) (hs : Src f.cfg o) (hn : f.cfg.endian.isNative = true) (abi : U64)
    (hb : f.s.bytes = e64 o abi) :
    ((parseRegisters 0#64 : P β (Registers Cow)) p).res = .error (.err f.s.fin) := by
  rw [← List.append_nil (e64 o abi)] at hb
  exact (Refines.registers 0#64).ends hp
    (Ends.bind (Reads.u64 hs abi) (Ends.first (Ends.slice _ _ hn (by decide)))) hb

example : demoCfg.endian.isNative = true ∧
    (match ((parseCallchain : P Slice (Cow U64)) (Parser.new ⟨16, e64 .little 0⟩ demoCfg)).res with
    | .error (.err e) => e == .eof
    | _ => false) = true := by decide +kernel

/-! ## C49 -/

/-- **C49**, the excluded case, for all inputs: whatever the ABI word is, zero included, the next words, one per
register of the mask, are returned as register values and consumed. (For ABI 0 the kernel wrote none, so these are
other data: `c49_abi_none_false`.) -/
theorem c49_any_abi (hp : RepP p f) (hs : Src f.cfg o) (abi mask : U64) (ws : List U64) (hl : ws.length = popcount mask)
    (hend : f.cfg.endian.isNative = true → ws = [] → tl ≠ []) (hal : f.cfg.endian.isNative = true → AlMod f.s.al 0)
    (hb : f.s.bytes = (e64 o abi ++ ws.flatMap (e64 o)) ++ tl) :
    ∃ x : Registers Cow, ((parseRegisters mask : P β (Registers Cow)) p).res = .ok x ∧ x.abi = abi ∧ x.mask = mask ∧
      x.regs.data = ws ∧ RepP ((parseRegisters mask : P β (Registers Cow)) p).st (f.adv (8 + 8 * popcount mask)) := by
  have hr : Reads f.cfg ⟨true, false⟩ 0 (parseRegisters mask : Spec (Registers List)) (e64 o abi ++ ws.flatMap (e64 o)) tl
      ⟨abi, mask, ws⟩ := by
    unfold parseRegisters
    refine Reads.step (Reads.u64 hs _) (by simp) (Reads.last (Reads.words (nd := ⟨true, false⟩) hs _ hl.symm rfl ?_ hend)
      fun _ => Reads.pure _)
    rw [hl]
    unfold popcount
    refine Nat.lt_of_le_of_lt (Nat.mul_le_mul_left 8 (List.length_filter_le _ _)) ?_
    simp
  obtain ⟨x, h1, h2, h3⟩ := Refines.reads (Refines.registers mask) hp hr nofun (fun _ => hal) hb
  have h2' : x.view = ⟨abi, mask, ws⟩ := h2
  simp only [Registers.view, Registers.mk.injEq] at h2'
  refine ⟨x, h1, h2'.1, h2'.2.1, h2'.2.2, ?_⟩
  rwa [List.length_append, e64_length, flatMap_e64_length, hl] at h3

/-- ABI 0 with mask `0x105` (three registers): the next three words. -/
example : (match ((parseRegisters 0x105#64 : P Slice (Registers Cow)) (Parser.new ⟨16, [0, 11, 22, 33, 44].flatMap (e64 .little)⟩
      demoCfg)) with
    | ⟨.ok x, st, _⟩ => x.abi == 0 && x.regs.data == [11, 22, 33] && st.data.offset == 32
    | _ => false) = true := by decide +kernel

/-! ## C23 -/

/-- **C23**, an excluded case, for all inputs: in native byte order a group without counters with nothing behind it is the
error at the end of the stream. -/
theorem c23_empty_at_end (hp : RepP p f) (hs : Src f.cfg o) (hn : f.cfg.endian.isNative = true)
    (h3 : f.cfg.readFormat.getLsbD 3 = true) (h5 : f.cfg.readFormat.getLsbD 5 = false) (te tr : U64)
    (hb : f.s.bytes = (KGroup.mk te tr []).enc o f.cfg.readFormat) :
    ((parseReadGroup : P β (ReadGroup Cow)) p).res = .error (.err f.s.fin) := by
  refine Refines.readGroup.ends hp ?_ hb
  unfold parseReadGroup KGroup.enc
  refine Ends.config ?_
  have hg : contains f.cfg.readFormat ReadFormat.GROUP = true :=
    (contains_rf _ 3 (by omega) _ rfl).trans h3
  have hd := diff_zero f.cfg h5
  simp only [hg, Bool.not_true, Bool.false_eq_true, if_false, hd, ne_eq, not_true_eq_false, List.append_assoc]
  refine Ends.bind (Reads.u64 hs _) ?_
  refine Ends.bind (Reads.parseIf _ (contains_rf _ 0 (by omega) _ rfl) fun _ => Reads.u64 hs _) ?_
  refine Ends.bind (Reads.parseIf _ (contains_rf _ 1 (by omega) _ rfl) fun _ => Reads.u64 hs _) ?_
  have h0 : (BitVec.ofNat 64 (List.length ([] : List KCounter))).toNat * ReadFormat.elementLen f.cfg.readFormat = 0 := by simp
  rw [h0, if_neg (by decide)]
  exact Ends.first (Ends.slice _ _ hn (by decide))

/-! ## Records -/

/-- A record whose body ends too early is an `Eof` error, and the parser stands behind the record. -/
theorem P.parseRecord_ends (hp : RepP p f) (hs : Src f.cfg o) (r : KRecord) (hsize : r.size o f.cfg < 65536)
    (he : Ends (f.cfg.withMisc r.misc) (parseBody r.body.type : Spec (Record List)) (r.body.enc o f.cfg))
    (hb : f.s.bytes = r.enc o f.cfg ++ tl) :
    (P.parseRecord p).res = .error (.err .eof) ∧ RepP (P.parseRecord p).st (f.adv (r.enc o f.cfg).length) := by
  obtain ⟨h0, h1, h2, _⟩ := P.record_frame hp hs r hsize hb (recordVisitor Cow)
  refine ⟨?_, h2⟩
  have h3 := h1.1
  simp only [KRecord.metadata] at h3
  rw [he ((((f.adv 8).region _).withMisc r.misc)) rfl h0] at h3
  exact h3

/-- **C37**, the excluded case, for all records: a record of a type the crate does not know, without a body, is an
`Eof` error; it is skipped. -/
theorem c37_empty_unknown (hp : RepP p f) (hs : Src f.cfg o) (ty : U32) (misc : U16) (t : KTrailer)
    (hty : ty.toNat ∉ knownTypes) (hsize : (KRecord.mk misc (.other ty []) t).size o f.cfg < 65536)
    (hb : f.s.bytes = (KRecord.mk misc (.other ty []) t).enc o f.cfg ++ tl) :
    (P.parseRecord p).res = .error (.err .eof) ∧
    RepP (P.parseRecord p).st (f.adv ((KRecord.mk misc (.other ty []) t).enc o f.cfg).length) := by
  refine P.parseRecord_ends hp hs _ hsize ?_ hb
  show Ends _ (parseBody ty) []
  rw [parseBody_other hty]
  exact Ends.first Ends.rest

/-- **C38**, for all records: every SWITCH record as the kernel writes it, with or without a trailer, is an `Eof` error; it
is skipped. -/
theorem c38_every_switch_false (hp : RepP p f) (hs : Src f.cfg o) (misc : U16) (t : KTrailer)
    (hsize : (KRecord.mk misc .switch t).size o f.cfg < 65536)
    (hb : f.s.bytes = (KRecord.mk misc .switch t).enc o f.cfg ++ tl) :
    (P.parseRecord p).res = .error (.err .eof) ∧
    RepP (P.parseRecord p).st (f.adv ((KRecord.mk misc .switch t).enc o f.cfg).length) := by
  refine P.parseRecord_ends hp hs _ hsize ?_ hb
  show Ends _ (parseBody 14#32) []
  rw [parseBody_other (by decide)]
  exact Ends.first Ends.rest

/-- **C14**, the excluded case, for all records: in native byte order every NAMESPACES record with an empty list is an `Eof`
error; it is skipped. -/
theorem c14_empty_native (hp : RepP p f) (hs : Src f.cfg o) (hn : f.cfg.endian.isNative = true) (misc : U16) (t : KTrailer)
    (pid tid : U32) (hsize : (KRecord.mk misc (.namespaces pid tid []) t).size o f.cfg < 65536)
    (hb : f.s.bytes = (KRecord.mk misc (.namespaces pid tid []) t).enc o f.cfg ++ tl) :
    (P.parseRecord p).res = .error (.err .eof) ∧
    RepP (P.parseRecord p).st (f.adv ((KRecord.mk misc (.namespaces pid tid []) t).enc o f.cfg).length) := by
  refine P.parseRecord_ends hp hs _ hsize ?_ hb
  have hs' : Src (f.cfg.withMisc misc) o := hs.withMisc misc
  show Ends _ (do let r ← parseNamespaces; pure (Record.namespaces r)) _
  refine Ends.first ?_
  unfold parseNamespaces
  show Ends _ _ (e32 o pid ++ e32 o tid ++ e64 o (BitVec.ofNat 64 0) ++ [])
  simp only [List.append_assoc]
  exact Ends.bind (Reads.u32 hs' _) (Ends.bind (Reads.u32 hs' _) (Ends.bind (Reads.u64 hs' _)
    (Ends.first (Ends.slice _ _ hn (by decide)))))

/-- **C14** at the level of records: `uts()` of a NAMESPACES record returns the fifth entry the kernel wrote. -/
theorem c14_uts_record_false (hp : RepP p f) (hs : Src f.cfg o) (misc : U16) (t : KTrailer) (pid tid : U32)
    (es : List NamespaceEntry) (hne : f.cfg.endian.isNative = true → es ≠ [])
    (hal : f.cfg.endian.isNative = true → AlMod f.s.al 0)
    (hsize : (KRecord.mk misc (.namespaces pid tid es) t).size o f.cfg < 65536)
    (hb : f.s.bytes = (KRecord.mk misc (.namespaces pid tid es) t).enc o f.cfg ++ tl) :
    ∃ ns : Namespaces Cow, (P.parseRecord p).res = .ok (.namespaces ns) ∧ ns.uts = es[4]? ∧ ns.network = es[0]? ∧
      ns.ipc = es[2]? ∧ ns.pidNs = es[3]? ∧ ns.user = es[4]? ∧ ns.cgroup = es[6]? := by
  obtain ⟨ns, h1, _, _, h2⟩ := c14_namespaces_partial hp hs misc t pid tid es hne hal hsize hb
  exact ⟨ns, h1, by rw [← h2]; rfl, by rw [← h2]; rfl, by rw [← h2]; rfl, by rw [← h2]; rfl, by rw [← h2]; rfl,
    by rw [← h2]; rfl⟩

/-! ## C10 -/

/-- **C10** without the hypothesis that all records are decodable. Every record of a stream gets one call, whatever the others
contain: the `i`-th call delivers the `i`-th record if that one is supported and (in native byte order) aligned, and after
the last call the parser is behind the last record. Full statement: without `h1` and `h2`. -/
theorem c10_each_partial (hp : RepP p f) (hs : Src f.cfg o) (rs : List KRecord) (hsize : ∀ r ∈ rs, r.size o f.cfg < 65536)
    (hb : f.s.bytes = encAll o f.cfg rs ++ tl) :
    (parseMany rs.length p).1.length = rs.length ∧
    RepP (parseMany rs.length p).2 (f.adv (encAll o f.cfg rs).length) ∧
    ∀ (i : Nat) (r : KRecord), rs[i]? = some r → ∀ (_h1 : r.body.Ok o f.cfg r.misc)
      (_h2 : r.body.needsAlignment = true → f.cfg.endian.isNative = true →
        AlMod (f.adv (encAll o f.cfg (rs.take i)).length).s.al 0),
      ∃ a : Record Cow, (parseMany rs.length p).1[i]? = some (.ok a) ∧ a.view = r.body.value f.cfg r.misc := by
  induction rs generalizing p f with
  | nil => exact ⟨rfl, by rw [show (encAll o f.cfg []).length = 0 from rfl, Flat.adv_zero]; exact hp, nofun⟩
  | cons r rs ih =>
    have hb' : f.s.bytes = r.enc o f.cfg ++ (encAll o f.cfg rs ++ tl) := by
      rw [hb]; simp [encAll]
    obtain ⟨_, _, h3, _⟩ := P.record_frame hp hs r (hsize r (by simp)) hb' (recordVisitor Cow)
    obtain ⟨h4, h5, h6⟩ := ih (p := (P.parseRecord p).st) (f := f.adv (r.enc o f.cfg).length) h3 hs
      (fun r' hr' => hsize r' (by simp [hr'])) (by simp [hb', Flat.adv_bytes])
    simp only [List.length_cons, parseMany]
    refine ⟨by rw [h4], ?_, ?_⟩
    · rw [Flat.adv_adv] at h5
      simpa [encAll] using h5
    · intro i r' hi ok hal
      cases i with
      | zero =>
        cases hi
        obtain ⟨⟨a, h1, h2⟩, _⟩ := P.parseRecord_enc hp hs r ok (hsize r (by simp)) (fun n1 n2 => by
          have := hal n1 n2
          rw [show (encAll o f.cfg ((r :: rs).take 0)).length = 0 from rfl, Flat.adv_zero] at this
          exact this) hb'
        exact ⟨a, by rw [h1]; rfl, h2⟩
      | succ i =>
        refine h6 i r' hi ok fun n1 n2 => ?_
        have := hal n1 n2
        rw [List.take_succ_cons, show encAll o f.cfg (r :: rs.take i) = r.enc o f.cfg ++ encAll o f.cfg (rs.take i) from rfl,
          List.length_append, ← Flat.adv_adv] at this
        exact this

/-- A stream with a SWITCH record in the middle: the second of three results is an error, the others are the records. -/
example :
    let bs := encAll .little demoCfg [demoNs, ⟨0, .switch, ⟨1, 2, 3, 4, 5, 6, 7, 8⟩⟩, demoNs]
    (match (parseMany 3 (Parser.new (⟨4096, bs⟩ : Slice) demoCfg)) with
    | ([.ok (.namespaces a), .error (.err e), .ok (.namespaces b)], st) =>
      a.namespaces.data.length == 7 && e == .eof && b.namespaces.data.length == 7 && st.data.offset == bs.length
    | _ => false) = true := by decide +kernel

/-! ## C35 -/

/-- **C35**, for all regions: the hint of a sub-parser is always the length the region had at the start, whatever was
consumed since. So it is exact only until something is consumed. -/
theorem c35_cursor_constant_false (hp : RepP p f) (n : Nat) (hlim : n < usizeLimit) {c : Parser Cursor}
    (h : (P.splitAt n p).res = .ok c) {c' : Cursor} (hr : Reach c.data.buf c') : ParseBuf.hint c' = some n := by
  have hs := (P.splitAt_takes hp hlim).1
  by_cases hle : n ≤ f.s.bytes.length
  · rw [if_pos hle] at hs
    obtain ⟨d, h1, h2, _⟩ := hs
    rw [h] at h1
    cases h1
    have key : ∀ b b' : Cursor, Reach b b' → b'.len = b.len := by
      intro b b' hr
      induction hr with
      | refl => rfl
      | chunk _ ih => exact ih
      | advance _ ha ih => exact (Cursor.advance_bytes ha).2.trans ih
    show some c'.len = some n
    rw [key _ _ hr, h2.length]
  · rw [if_neg hle, h] at hs
    cases hs

end Perf
