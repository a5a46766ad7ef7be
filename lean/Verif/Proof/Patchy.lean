import Verif.Proof.Top
/-!
# Buffers that sometimes return empty chunks

`Patchy Rep` is weaker than `Lawful`: `chunk` may return nothing at all, as long as `steps` counts down whenever a whole
chunk is consumed.
-/
namespace Perf
variable {β : Type} [ParseBuf β] {O : Type}

/-- What the `chunk` result of such a buffer promises. -/
def PatchyLaw (Rep : β → Stream → Prop) (b : β) (s : Stream) : Except Fault Chunk × β → Prop
  | (.ok c, b') =>
    c.data <+: s.bytes ∧ (c.data ≠ [] → s.al.Allows c.loc) ∧ ParseBuf.steps b' ≤ ParseBuf.steps b ∧ Rep b' s ∧
    ∀ k, k ≤ c.data.length → ∃ b'', ParseBuf.advance b' k = some b'' ∧ Rep b'' (s.drop k) ∧
      ParseBuf.steps b'' ≤ ParseBuf.steps b' ∧ (k = c.data.length → ParseBuf.steps b'' < ParseBuf.steps b')
  | (.error (.err e), _) => s.bytes = [] ∧ e = s.fin
  | (.error _, _) => False

/-- A buffer that stands for a stream, eventually makes progress, and may return empty chunks in between. -/
structure Patchy (Rep : β → Stream → Prop) : Prop where
  law : ∀ b s, Rep b s → PatchyLaw Rep b s (ParseBuf.chunk b)

/-- Every lawful buffer is one. -/
theorem Patchy.lawful [Lawful β] : Patchy (Lawful.Rep (β := β)) where
  law b s h := by
    have := Lawful.chunk_law b s h
    unfold ChunkLaw at this
    unfold PatchyLaw
    split at this
    · rename_i c b' heq
      rw [heq]
      obtain ⟨h1, h2, h3, h4, h5, _, h7⟩ := this
      refine ⟨h2, fun _ => h3, h5, h4, fun k hk => ?_⟩
      obtain ⟨b'', e1, e2, e3, _⟩ := h7 k hk
      have := List.length_pos_iff.mpr h1
      exact ⟨b'', e1, e2, by omega, fun _ => by omega⟩
    · rename_i e b' heq
      rw [heq]
      exact this
    · exact this.elim

/-- The parser stands for the flat state. -/
structure RepQ (Rep : β → Stream → Prop) (p : Parser β) (f : Flat) : Prop where
  rep : Rep p.data.buf f.s
  off : p.data.offset = f.off
  cfg : p.config = f.cfg
  wf : f.cfg.Wf

variable {Rep : β → Stream → Prop}

theorem Patchy.chunk_cases (P' : Patchy Rep) {p : Parser β} {f : Flat} (h : RepQ Rep p f) :
    (f.s.bytes = [] ∧ ∃ q, P.chunk p = ⟨.error (.err f.s.fin), q, []⟩) ∨
    ∃ c q, P.chunk p = ⟨.ok c, q, []⟩ ∧ c.data <+: f.s.bytes ∧ (c.data ≠ [] → f.s.al.Allows c.loc) ∧
      ParseBuf.steps q.data ≤ ParseBuf.steps p.data ∧ RepQ Rep q f ∧
      ∀ k, k ≤ c.data.length → ∃ q', P.advance k q = ⟨.ok (), q', []⟩ ∧ RepQ Rep q' (f.adv k) ∧
        ParseBuf.steps q'.data ≤ ParseBuf.steps q.data ∧ (k = c.data.length → ParseBuf.steps q'.data < ParseBuf.steps q.data) := by
  have := P'.law p.data.buf f.s h.rep
  have hrun : P.chunk p = ⟨(ParseBuf.chunk p.data.buf).1, { p with data := { p.data with buf := (ParseBuf.chunk p.data.buf).2 } }, []⟩ := rfl
  unfold PatchyLaw at this
  split at this
  · rename_i c b' heq
    obtain ⟨h1, h2, h3, h4, h5⟩ := this
    rw [heq] at hrun
    refine .inr ⟨c, _, hrun, h1, h2, h3, ⟨h4, h.off, h.cfg, h.wf⟩, fun k hk => ?_⟩
    obtain ⟨b'', e1, e2, e3, e4⟩ := h5 k hk
    refine ⟨{ p with data := ⟨b'', p.data.offset + k⟩ }, ?_, ⟨e2, by show p.data.offset + k = _; rw [h.off]; rfl, h.cfg, h.wf⟩, e3, e4⟩
    unfold P.advance
    have : ParseBuf.advance (⟨b', p.data.offset⟩ : Tracking β) k = some ⟨b'', p.data.offset + k⟩ := by
      show (ParseBuf.advance b' k).map _ = _
      rw [e1]; rfl
    show (match ParseBuf.advance (⟨b', p.data.offset⟩ : Tracking β) k with | some d => _ | none => _) = _
    rw [this]
  · rename_i e b' heq
    obtain ⟨h1, h2⟩ := this
    rw [heq, h2] at hrun
    exact .inl ⟨h1, _, hrun⟩
  · exact this.elim

/-- Enough fuel. -/
def Enough (p : Parser β) (fuel len : Nat) : Prop := ParseBuf.steps p.data < fuel ∨ (len = 0 ∧ 0 < fuel)

theorem Patchy.toSliceLoop (P' : Patchy Rep) : ∀ (fuel len : Nat) (acc : List Byte) (p : Parser β) (f : Flat),
    RepQ Rep p f → Enough p fuel len →
    (P.toSliceLoop fuel len acc p).log = [] ∧
    if len ≤ f.s.bytes.length then (P.toSliceLoop fuel len acc p).res = .ok (acc ++ f.s.bytes.take len) ∧
      RepQ Rep (P.toSliceLoop fuel len acc p).st (f.adv len)
    else (P.toSliceLoop fuel len acc p).res = .error (.err f.s.fin)
  | 0, _, _, _, _, _, hf => by rcases hf with h | h <;> omega
  | fuel + 1, len, acc, p, f, h, hf => by
    unfold P.toSliceLoop
    by_cases h0 : len = 0
    · subst h0
      simp only [if_pos, Nat.zero_le, P.pure_run, List.take_zero, List.append_nil, Flat.adv_zero]
      exact ⟨trivial, trivial, h⟩
    · have hst : ParseBuf.steps p.data < fuel + 1 := hf.resolve_right fun h => h0 h.1
      simp only [if_neg h0]
      rcases P'.chunk_cases h with ⟨he, q, hq⟩ | ⟨c, q, hq, hpre, -, hle, hrq, hadv⟩
      · rw [P.bind_err hq, if_neg (by simp [he]; omega)]
        exact ⟨rfl, rfl⟩
      · rw [P.bind_nil hq]
        obtain ⟨q', hq', hr', hs', hs''⟩ := hadv (min c.data.length len) (Nat.min_le_left _ _)
        obtain ⟨_, _, _, _, h1⟩ := hadv c.data.length (Nat.le_refl _)
        have h1 := h1 rfl
        rw [P.bind_nil hq']
        have hlen := hpre.length_le
        have hdata : c.data.take (min c.data.length len) = f.s.bytes.take (min c.data.length len) :=
          List.take_eq_prefix hpre (Nat.min_le_left _ _)
        have := Patchy.toSliceLoop P' fuel (len - min c.data.length len) (acc ++ c.data.take (min c.data.length len)) q' _ hr'
          (by
            by_cases hc : c.data.length ≤ len
            · have := hs'' (by omega)
              exact .inl (by omega)
            · exact .inr ⟨by omega, by omega⟩)
        simp only [Flat.adv_bytes, List.length_drop, Flat.adv_adv, Flat.adv_fin] at this
        refine ⟨this.1, ?_⟩
        have h3 := this.2
        by_cases hle : len ≤ f.s.bytes.length
        · rw [if_pos hle]
          rw [if_pos (by omega), List.append_assoc, hdata, List.take_split _ (Nat.min_le_right _ _),
            show min c.data.length len + (len - min c.data.length len) = len by omega] at h3
          rw [hdata]
          exact h3
        · rw [if_neg hle]
          rw [if_neg (by omega)] at h3
          exact h3

theorem Patchy.array (P' : Patchy Rep) {p : Parser β} {f : Flat} (h : RepQ Rep p f) {n : Nat} (h0 : 0 < n) :
    (P.array n p).log = [] ∧
    if n ≤ f.s.bytes.length then (P.array n p).res = .ok (f.s.bytes.take n) ∧ RepQ Rep (P.array n p).st (f.adv n)
    else (P.array n p).res = .error (.err f.s.fin) := by
  unfold P.array
  rcases P'.chunk_cases h with ⟨he, q, hq⟩ | ⟨c, q, hq, hpre, -, hle, hrq, hadv⟩
  · rw [P.bind_err hq, if_neg (by simp [he]; omega)]
    exact ⟨rfl, rfl⟩
  · rw [P.bind_nil hq]
    by_cases hc : c.data.length < n
    · rw [P.ite_pos hc]
      unfold P.toSlice
      rw [P.bind_nil (P.fuel_run q)]
      have := P'.toSliceLoop (ParseBuf.steps q.data + 1) n [] q f hrq (.inl (by omega))
      rw [List.nil_append] at this
      exact this
    · rw [P.ite_neg hc]
      obtain ⟨q', hq', hr', -⟩ := hadv n (by omega)
      have := hpre.length_le
      rw [P.bind_nil hq', if_pos (by omega), P.pure_run, List.take_eq_prefix hpre (by omega)]
      exact ⟨rfl, rfl, hr'⟩

theorem Patchy.cursorLoop (P' : Patchy Rep) : ∀ (fuel len : Nat) (acc : List Chunk) (p : Parser β) (f : Flat) (al : Al) (d : List Byte),
    RepQ Rep p f → Enough p fuel len → Pieces al acc.reverse d → al.add d.length = f.s.al →
    (if len ≤ f.s.bytes.length then
      ∃ out, (P.cursorLoop fuel len acc p).res = .ok out ∧ Pieces al out.reverse (d ++ f.s.bytes.take len) ∧
        RepQ Rep (P.cursorLoop fuel len acc p).st (f.adv len)
     else (P.cursorLoop fuel len acc p).res = .error (.err f.s.fin)) ∧
    (∀ n ∈ (P.cursorLoop fuel len acc p).log, n ≤ f.s.bytes.length) := by
  intro fuel
  induction fuel with
  | zero => intro len acc p f al d h hs; rcases hs with h | h <;> omega
  | succ fuel ih =>
    intro len acc p f al d h hs hp hal
    unfold P.cursorLoop
    by_cases hl : len = 0
    · subst hl
      simp only [if_pos, Nat.zero_le, P.pure_run, List.take_zero, List.append_nil, Flat.adv_zero]
      exact ⟨⟨acc, rfl, hp, h⟩, by simp⟩
    · have hst : ParseBuf.steps p.data < fuel + 1 := hs.resolve_right fun h => hl h.1
      simp only [if_neg hl]
      rcases P'.chunk_cases h with ⟨he, q, hq⟩ | ⟨c, q, hq, hpre, hcal, hle, hrq, hadv⟩
      · rw [P.bind_err hq, if_neg (by simp [he]; omega)]
        exact ⟨rfl, by simp⟩
      · rw [P.bind_nil hq]
        obtain ⟨q', hq', hr', hs', hs''⟩ := hadv (min c.data.length len) (Nat.min_le_left _ _)
        obtain ⟨_, _, _, _, h1⟩ := hadv c.data.length (Nat.le_refl _)
        have h1 := h1 rfl
        have henough : Enough q' fuel (len - min c.data.length len) := by
          by_cases hc : c.data.length ≤ len
          · have := hs'' (by omega)
            exact .inl (by omega)
          · exact .inr ⟨by omega, by omega⟩
        have htl : (c.truncate len).data.length = min c.data.length len := by
          rw [Chunk.truncate_data, List.length_take]; omega
        have hlen := hpre.length_le
        have hdata : (c.truncate len).data = f.s.bytes.take (min c.data.length len) := by
          rw [Chunk.truncate_data, List.take_eq_prefix hpre (Nat.min_le_left _ _)]
        have ha : ∃ l acc', (∀ n ∈ l, n ≤ f.s.bytes.length) ∧ P.pushChunk (c.truncate len) acc q = ⟨.ok acc', q, l⟩ ∧
            Pieces al acc'.reverse (d ++ f.s.bytes.take (min c.data.length len)) := by
          unfold P.pushChunk
          by_cases hpos : (c.truncate len).data.length > 0
          · obtain ⟨l, hl, hr⟩ := P.toCow_run (c.truncate len) q
            refine ⟨l, c.truncate len :: acc, fun n hn => by have := hl n hn; omega, ?_, ?_⟩
            · rw [P.ite_pos hpos, P.bind_ok hr]
              simp [P.pure_run]
            · rw [List.reverse_cons]
              refine ⟨?_, ChunksAl.snoc _ _ _ hp.al ?_, ?_⟩
              · intro x hx
                rcases List.mem_append.mp hx with h1 | h1
                · exact hp.nonempty x h1
                · simp only [List.mem_singleton] at h1
                  subst h1
                  exact List.length_pos_iff.mp hpos
              · rw [Chunk.truncate_loc, ← chunksData_length, hp.data, hal]
                exact hcal (by intro h2; rw [htl, h2] at hpos; simp at hpos)
              · rw [chunksData_append, hp.data]
                simp [chunksData, hdata]
          · refine ⟨[], acc, by simp, ?_, ?_⟩
            · rw [P.ite_neg hpos, P.pure_run]
            · rw [show min c.data.length len = 0 by omega]
              simpa using hp
        obtain ⟨l, acc', hl', ha, hp'⟩ := ha
        simp only [htl]
        rw [P.bind_ok ha, P.bind_nil hq']
        have := ih (len - min c.data.length len) acc' q' _ al _ hr' henough hp' (by
          rw [List.length_append, ← Al.add_add, hal, Flat.adv_al, List.length_take]
          congr 1; omega)
        simp only [Flat.adv_bytes, List.length_drop, Flat.adv_adv, Flat.adv_fin] at this
        refine ⟨?_, ?_⟩
        · have h3 := this.1
          by_cases hle : len ≤ f.s.bytes.length
          · rw [if_pos hle]
            rw [if_pos (by omega), List.append_assoc, List.take_split _ (Nat.min_le_right _ _),
              show min c.data.length len + (len - min c.data.length len) = len by omega] at h3
            exact h3
          · rw [if_neg hle]
            rw [if_neg (by omega)] at h3
            exact h3
        · intro n hn
          rcases List.mem_append.mp hn with h1 | h1
          · exact hl' n h1
          · have := this.2 n h1
            omega

theorem Patchy.splitAt (P' : Patchy Rep) {p : Parser β} {f : Flat} (h : RepQ Rep p f) {len : Nat} (hlim : len < usizeLimit) :
    SplitOk (fun st => RepQ Rep st (f.adv len)) f len (P.splitAt len p) := by
  have hc := P'.cursorLoop (ParseBuf.steps p.data + 1) len [] p f f.s.al [] h (.inl (by omega))
    ⟨by simp, trivial, rfl⟩ (by simp [Al.add_zero])
  unfold SplitOk P.splitAt P.newCursor
  by_cases hle : len ≤ f.s.bytes.length
  · rw [if_pos hle] at hc ⊢
    obtain ⟨⟨out, h1, h2, h3⟩, h5⟩ := hc
    have hn : (P.newCursor len : P β Cursor) p = ⟨.ok ⟨out.reverse, 0, len⟩, (P.cursorLoop (ParseBuf.steps p.data + 1) len [] p).st,
        (P.cursorLoop (ParseBuf.steps p.data + 1) len [] p).log⟩ := by
      unfold P.newCursor
      rw [P.bind_nil (P.fuel_run p), P.bind_ok (P.run_eq _ h1)]
      simp [P.pure_run]
    unfold P.newCursor at hn
    rw [P.bind_ok hn, P.bind_nil (P.config_run _)]
    simp only [P.pure_run, List.append_nil]
    refine ⟨⟨_, rfl, ?_, h3⟩, h5⟩
    simp only [List.nil_append] at h2
    refine ⟨rfl, rfl, h2, ⟨?_, rfl, h3.cfg, h.wf⟩⟩
    have hb : chunkBytes out.reverse ≤ len := by
      rw [← chunksData_length, h2.data, List.length_take]; omega
    have := Cursor.Rep.fresh h2.nonempty hb hlim h2.al
    rw [h2.data] at this
    exact this
  · rw [if_neg hle] at hc ⊢
    have hn : (P.newCursor len : P β Cursor) p = ⟨.error (.err f.s.fin), (P.cursorLoop (ParseBuf.steps p.data + 1) len [] p).st,
        (P.cursorLoop (ParseBuf.steps p.data + 1) len [] p).log⟩ := by
      unfold P.newCursor
      rw [P.bind_nil (P.fuel_run p), P.bind_err (P.run_eq _ hc.1)]
    unfold P.newCursor at hn
    rw [P.bind_err hn]
    exact ⟨rfl, hc.2⟩

/-! ## The header -/

theorem Patchy.u32 (P' : Patchy Rep) {p : Parser β} {f : Flat} (h : RepQ Rep p f) :
    (4 ≤ f.s.bytes.length ∧ ∃ q, (parseU32 : P β U32) p = ⟨.ok (f.cfg.endian.conv32 (f.s.bytes.take 4)), q, []⟩ ∧ RepQ Rep q (f.adv 4)) ∨
    (f.s.bytes.length < 4 ∧ ∃ q, (parseU32 : P β U32) p = ⟨.error (.err f.s.fin), q, []⟩) := by
  obtain ⟨hl, ha⟩ := P'.array h (n := 4) (by omega)
  rcases Nat.lt_or_ge f.s.bytes.length 4 with hn | hn
  · rw [if_neg (by omega)] at ha
    have := P.run_eq _ ha
    rw [hl] at this
    exact .inr ⟨hn, _, P.bind_err this⟩
  · rw [if_pos hn] at ha
    have := P.run_eq _ ha.1
    rw [hl] at this
    refine .inl ⟨hn, _, ?_, ha.2⟩
    show (P.array 4 >>= fun a => P.config >>= fun cfg => pure (cfg.endian.conv32 a)) p = _
    rw [P.bind_nil this, P.bind_nil (P.config_run _), P.pure_run, ha.2.cfg]
    rfl

theorem Patchy.u16 (P' : Patchy Rep) {p : Parser β} {f : Flat} (h : RepQ Rep p f) :
    (2 ≤ f.s.bytes.length ∧ ∃ q, (parseU16 : P β U16) p = ⟨.ok (f.cfg.endian.conv16 (f.s.bytes.take 2)), q, []⟩ ∧ RepQ Rep q (f.adv 2)) ∨
    (f.s.bytes.length < 2 ∧ ∃ q, (parseU16 : P β U16) p = ⟨.error (.err f.s.fin), q, []⟩) := by
  obtain ⟨hl, ha⟩ := P'.array h (n := 2) (by omega)
  rcases Nat.lt_or_ge f.s.bytes.length 2 with hn | hn
  · rw [if_neg (by omega)] at ha
    have := P.run_eq _ ha
    rw [hl] at this
    exact .inr ⟨hn, _, P.bind_err this⟩
  · rw [if_pos hn] at ha
    have := P.run_eq _ ha.1
    rw [hl] at this
    refine .inl ⟨hn, _, ?_, ha.2⟩
    show (P.array 2 >>= fun a => P.config >>= fun cfg => pure (cfg.endian.conv16 a)) p = _
    rw [P.bind_nil this, P.bind_nil (P.config_run _), P.pure_run, ha.2.cfg]
    rfl

/-- After the header, `parse_record` is `parse_record_with_header`. -/
theorem Patchy.record (P' : Patchy Rep) {p : Parser β} {f : Flat} (h : RepQ Rep p f) (v : Visitor Cow O) :
    (f.s.bytes.length < 8 ∧ (P.record v p).res = .error (.err f.s.fin)) ∨
    (8 ≤ f.s.bytes.length ∧ RecordOkR (fun st => RepQ Rep st ((f.adv 8).adv ((headerAt f).size.toNat - 8))) (f.adv 8) v (headerAt f)
      (P.record v p)) := by
  unfold P.record
  have hh : (f.s.bytes.length < 8 ∧ ∃ q, (parseHeader : P β Header) p = ⟨.error (.err f.s.fin), q, []⟩) ∨
      (8 ≤ f.s.bytes.length ∧ ∃ q, (parseHeader : P β Header) p = ⟨.ok (headerAt f), q, []⟩ ∧ RepQ Rep q (f.adv 8)) := by
    unfold parseHeader
    rcases P'.u32 h with ⟨h4, q1, h1, r1⟩ | ⟨h4, q, hq⟩
    · rw [P.bind_nil h1]
      rcases P'.u16 r1 with ⟨h6, q2, h2, r2⟩ | ⟨h6, q, hq⟩
      · rw [P.bind_nil h2]
        simp only [Flat.adv_bytes, List.length_drop] at h6
        rcases P'.u16 r2 with ⟨h8, q3, h3, r3⟩ | ⟨h8, q, hq⟩
        · rw [P.bind_nil h3, P.pure_run]
          simp only [Flat.adv_bytes, List.length_drop] at h8
          refine .inr ⟨by omega, q3, by simp [headerAt], by simpa [Flat.adv_adv] using r3⟩
        · simp only [Flat.adv_bytes, List.length_drop] at h8
          exact .inl ⟨by omega, q, P.bind_err hq⟩
      · simp only [Flat.adv_bytes, List.length_drop] at h6
        exact .inl ⟨by omega, q, P.bind_err hq⟩
    · exact .inl ⟨by omega, q, P.bind_err hq⟩
  rcases hh with ⟨h8, q, hq⟩ | ⟨h8, q, hq, hr⟩
  · rw [P.bind_err hq]
    exact .inl ⟨h8, rfl⟩
  · rw [P.bind_nil hq]
    refine .inr ⟨h8, P.recordWithHeader_of v _ (P.metadataWithHeader_of _ fun _ => P'.splitAt hr ?_)⟩
    have := (headerAt f).size_lt; unfold usizeLimit; omega

/-! ## A list of pieces, some of them empty -/

/-- The bytes of the pieces. -/
def ChunkBuf.all (b : ChunkBuf) : List Byte := (b.pieces.map (·.data)).flatten

theorem ChunkBuf.all_advLoop : ∀ (ps : List Slice) (n : Nat), ((ChunkBuf.advLoop ps n).map (·.data)).flatten = ((ps.map (·.data)).flatten).drop n
  | [], n => by simp [ChunkBuf.advLoop]
  | s :: ss, n => by
    unfold ChunkBuf.advLoop
    split
    · rename_i h
      simp only [List.map_cons, List.flatten_cons]
      rw [List.drop_append_of_le_length (by omega)]
    · rename_i h
      rw [ChunkBuf.all_advLoop ss]
      simp only [List.map_cons, List.flatten_cons]
      rw [List.drop_append, List.drop_eq_nil_of_le (as := s.data) (by omega), List.nil_append]

theorem ChunkBuf.cost_advLoop : ∀ (ps : List Slice) (n : Nat), ChunkBuf.cost (ChunkBuf.advLoop ps n) ≤ ChunkBuf.cost ps
  | [], n => Nat.le_refl _
  | s :: ss, n => by
    unfold ChunkBuf.advLoop
    split
    · simp only [ChunkBuf.cost, List.length_drop]; omega
    · have := ChunkBuf.cost_advLoop ss (n - s.data.length)
      simp only [ChunkBuf.cost]; omega

/-- Every list of pieces, empty or not, anywhere in memory. -/
theorem Patchy.chunkBuf : Patchy (fun (b : ChunkBuf) s => s.bytes = b.all ∧ s.al = .unknown ∧ s.fin = .eof) where
  law := by
    rintro ⟨ps⟩ ⟨bytes, al, fin⟩ ⟨h1, h2, h3⟩
    dsimp only at h1 h2 h3
    subst h1 h2 h3
    cases ps with
    | nil => exact ⟨rfl, rfl⟩
    | cons s ss =>
      refine ⟨⟨(ss.map (·.data)).flatten, rfl⟩, fun _ => trivial, Nat.le_refl _, ⟨rfl, rfl, rfl⟩, fun k hk => ?_⟩
      refine ⟨⟨ChunkBuf.advLoop (s :: ss) k⟩, rfl, ⟨(ChunkBuf.all_advLoop (s :: ss) k).symm, rfl, rfl⟩,
        ChunkBuf.cost_advLoop _ _, ?_⟩
      rintro rfl
      show ChunkBuf.cost (ChunkBuf.advLoop (s :: ss) s.data.length) < ChunkBuf.cost (s :: ss)
      unfold ChunkBuf.advLoop
      rw [if_neg (by omega)]
      have := ChunkBuf.cost_advLoop ss (s.data.length - s.data.length)
      simp only [ChunkBuf.cost]; omega

end Perf
