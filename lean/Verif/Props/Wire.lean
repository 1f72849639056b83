import Verif.Lemmas.WriteFrame
import Verif.Model.FirstFrame
/-! # C01, C02, C03: the wire -/
namespace Qrpc
open Spec

theorem sentAs_plain (codec : Option Codec) (u : UFrame) (h : u.wantsCodec = false) :
    sentAs codec u.flags u.payload = .ok (u.flags, u.payload) := by
  have hc : FrameFlag.isCodec u.flags = false := by rw [isCodec_testBit]; exact h
  unfold sentAs
  split
  · next hp => rw [hp, toNonCodec_of_not _ hc]
  · simp [hc]

theorem writeUFrames_layout (codec : Option Codec) (us : List UFrame) (h : ∀ u ∈ us, u.wantsCodec = false) :
    ∀ d : DFW, d.Clean →
      writeUFrames codec d us = ((us.map fun u => layout u.id u.cmd u.flags u.payload).flatten, true) := by
  induction us with
  | nil => intro d _; rfl
  | cons u us ih =>
    intro d hd
    obtain ⟨⟨sub, e1, e2⟩, e3, e4⟩ := writeUFrame_ok codec hd u (sentAs_plain codec u (h u (by simp)))
    simp only [writeUFrames, e1, e2, e3, ih (fun v hv => h v (by simp [hv])) _ e4]
    simp

/-- **C01**. A sequence of frames written with one writer (fresh or ready for a new frame), delivered to a reader in any
fragmentation (any `Src` whose bytes start with what was written), is read back exactly: same ids, 24-bit commands,
flags, payloads, in order, all writes reporting nil, and exactly those bytes consumed. The sender's and the reader's
codec settings do not matter because no frame asks for compression (that case is C08). -/
theorem C01_round_trip (wcodec : Option Codec) (cfg : FrameReaderCfg) (d : DFW) (hd : d.Clean) (us : List UFrame)
    (hc : ∀ u ∈ us, u.wantsCodec = false)
    (hsize : ∀ u ∈ us, 12 + u.payload.length < 2 ^ 32)
    (hadm : ∀ u ∈ us, Admits cfg (12 + u.payload.length))
    (s : Src) (rest : Bytes) (hs : srcBytes s = (writeUFrames wcodec d us).1 ++ rest) :
    (writeUFrames wcodec d us).2 = true ∧
    ∃ s', readN cfg us.length s = (.ok (us.map UFrame.expected), s') ∧ srcBytes s' = rest ∧ srcEnd s' = srcEnd s := by
  rw [writeUFrames_layout wcodec us hc d hd] at hs ⊢
  refine ⟨rfl, ?_⟩
  clear hd
  induction us generalizing s with
  | nil => exact ⟨s, rfl, by simpa using hs, rfl⟩
  | cons u us ih =>
    simp only [List.map_cons, List.flatten_cons, List.append_assoc] at hs
    obtain ⟨s1, e1, e2, e3⟩ := readFrame_layout cfg s u.id u.cmd u.flags u.payload _
      (hsize u (by simp)) (hadm u (by simp)) hs
    have hdec : decodePayload cfg u.flags u.payload = .ok u.payload := by
      have hcu : FrameFlag.isCodec u.flags = false := by rw [isCodec_testBit]; exact hc u (by simp)
      unfold decodePayload
      split
      · next hp => rw [hp]
      · simp [hcu]
    rw [hdec] at e3
    obtain ⟨s', r1, r2, r3⟩ := ih (fun v hv => hc v (by simp [hv])) (fun v hv => hsize v (by simp [hv]))
      (fun v hv => hadm v (by simp [hv])) s1 e1
    refine ⟨s', ?_, r2, by rw [r3, e2]⟩
    simp only [List.length_cons, readN, e3, Except.map, r1, List.map_cons]
    rfl

/-- Non-trivial instance of C01: two frames (one in two chunks, one empty with stream flags), delivered byte by byte. -/
example :
    let us : List UFrame := [⟨3, 0x01020304, 1, [[0xaa], [0xbb, 0xcc]]⟩, ⟨0xffffffffffffffff, 7, 3, []⟩]
    let bytes := (writeUFrames none DFW.new us).1
    (∀ u ∈ us, u.wantsCodec = false) ∧ DFW.new.Clean ∧
    (readN (serveReaderCfg 0 none) 2 { buf := [], conn := bytes.map fun b => .data [b] }).1.toOption =
      some [⟨3, 1, 0x020304, [0xaa, 0xbb, 0xcc]⟩, ⟨0xffffffffffffffff, 3, 7, []⟩] := by
  refine ⟨by decide, rfl, ?_⟩
  have h := C01_round_trip none (serveReaderCfg 0 none) DFW.new new_clean
    [⟨3, 0x01020304, 1, [[0xaa], [0xbb, 0xcc]]⟩, ⟨0xffffffffffffffff, 7, 3, []⟩] (by decide) (by decide)
    (by intro u hu; right; revert u; decide)
    { buf := [], conn := (writeUFrames none DFW.new
        [⟨3, 0x01020304, 1, [[0xaa], [0xbb, 0xcc]]⟩, ⟨0xffffffffffffffff, 7, 3, []⟩]).1.map fun b => .data [b] } []
    (by decide)
  obtain ⟨_, s', e, _⟩ := h
  simp only [List.length_cons, List.length_nil] at e
  simp only [e]; decide

/-- **C02**. Whatever a writer did before, when `EndWrite` submits a frame after `StartWrite id cmd flags` and payload
writes, the submitted bytes are the documented layout of that id, the low 24 bits of the command, the flags and the
payload (flags and payload possibly replaced by the codec, see C08). -/
theorem C02_layout {ε} (codec : Option Codec) (write : DFW → Option ε) (d : DFW) (hd : 16 ≤ d.wbuf.length)
    (u : UFrame) (sub : DFW)
    (hsub : ((u.chunks.foldl DFW.writeBytes (d.startWrite u.id u.cmd u.flags)).endWrite codec write).submitted = some sub) :
    ∃ f p, sub.wbuf = layout u.id u.cmd f p ∧ (u.wantsCodec = false → f = u.flags ∧ p = d.payload ++ u.payload) := by
  obtain ⟨h1, h2⟩ := foldl_writeBytes (DFW.startWrite_holds d u.id u.cmd u.flags hd) u.chunks
  rw [DFW.startWrite_payload d _ _ _ hd] at h2
  change _ = d.payload ++ u.payload at h2
  cases hs : sentAs codec u.flags (d.payload ++ u.payload) with
  | error e =>
    have := (endWrite_error h1 codec write (by rw [h2]; exact hs)).1
    rw [this] at hsub; simp at hsub
  | ok fp =>
    obtain ⟨f, p⟩ := fp
    obtain ⟨sub', e1, e2, _⟩ := endWrite_ok h1 codec write (by rw [h2]; exact hs)
    rw [e1] at hsub; simp only [Option.some.injEq] at hsub; subst hsub
    refine ⟨f, p, e2, ?_⟩
    intro hc
    have hcu : FrameFlag.isCodec u.flags = false := by rw [isCodec_testBit]; exact hc
    unfold sentAs at hs
    split at hs
    · next hp =>
      simp only [Except.ok.injEq, Prod.mk.injEq, toNonCodec_of_not _ hcu] at hs
      exact ⟨hs.1.symm, by rw [hp]; exact hs.2.symm⟩
    · simp only [hcu, Bool.false_eq_true, if_false, Except.ok.injEq, Prod.mk.injEq] at hs
      exact ⟨hs.1.symm, hs.2.symm⟩

/-- `EndWriteCompressed` uses the same layout. -/
theorem C02_layout_compressed {ε} (write : DFW → Option ε) (d : DFW) (hd : 16 ≤ d.wbuf.length) (u : UFrame) :
    ∃ sub f, ((u.chunks.foldl DFW.writeBytes (d.startWrite u.id u.cmd u.flags)).endWriteCompressed write).submitted = some sub ∧
      sub.wbuf = layout u.id u.cmd f (d.payload ++ u.payload) ∧ f = u.flags ||| 32 := by
  obtain ⟨h1, h2⟩ := foldl_writeBytes (DFW.startWrite_holds d u.id u.cmd u.flags hd) u.chunks
  rw [DFW.startWrite_payload d _ _ _ hd] at h2
  obtain ⟨h3, h4⟩ := h1.setFlags (FrameFlag.toCodec u.flags)
  obtain ⟨sub, e1, e2, _⟩ := h3.endWriteRaw write
  refine ⟨sub, FrameFlag.toCodec u.flags, ?_, ?_, rfl⟩
  · unfold DFW.endWriteCompressed; rw [h1.flags_eq]; exact e1
  · rw [e2, h4, h2]; rfl

/-- **C02**, tool/packet: for accepted arguments it prints the same layout, and it accepts exactly 24-bit commands and
8-bit flags. -/
theorem C02_packet_tool (cmd flg : Int) (id : UInt64) (p : Bytes) :
    packetTool cmd flg id p =
      if 0 ≤ cmd ∧ cmd < 2 ^ 24 ∧ 0 ≤ flg ∧ flg < 256 then
        some (layout id (UInt32.ofNat cmd.toNat) (UInt8.ofNat flg.toNat) p)
      else none := by
  unfold packetTool
  by_cases hc : cmd < 0 ∨ cmd > 0xffffff
  · rw [if_pos hc, if_neg (by omega)]
  · rw [if_neg hc]
    by_cases hf : flg < 0 ∨ flg > 0xff
    · rw [if_pos hf, if_neg (by omega)]
    · rw [if_neg hf, if_pos (by omega)]
      have hcaf : UInt32.ofNat flg.toNat = (UInt8.ofNat flg.toNat).toUInt32 := by
        apply UInt32.toNat_inj.mp
        rw [UInt8.toNat_toUInt32, UInt32.toNat_ofNat', UInt8.toNat_ofNat']; omega
      simp only [hcaf, putUint32_cmdAndFlags]
      simp only [putUint64_be, putUint32_be]
      have hr : (List.replicate (16 + p.length) 0 : Bytes) =
          0::0::0::0::0::0::0::0::0::0::0::0::0::0::0::0::List.replicate p.length 0 := by
        rw [Nat.add_comm]; rfl
      have hbe : be 4 (UInt32.ofNat (16 + p.length - 4)).toNat = be 4 (12 + p.length) := by
        have e : 16 + p.length - 4 = 12 + p.length := by omega
        rw [e]
        simp only [be, List.cons.injEq]
        refine ⟨?_, ?_, ?_, ?_, trivial⟩ <;>
          (apply UInt8.toNat_inj.mp; simp only [UInt8.toNat_ofNat', UInt32.toNat_ofNat']; omega)
      simp only [List.length_replicate]
      rw [hbe, hr]
      unfold layout
      generalize 12 + p.length = n
      simp [putAt, be]; omega

example : packetTool 0x010203 8 5 [0xff] = some [0,0,0,13, 0,0,0,0,0,0,0,5, 8, 1,2,3, 0xff] := by decide
/-- Non-trivial instance of C02: a dirty writer (payload `[9]` left over) and a 32-bit command. -/
example : ((([[1],[2]] : List Bytes).foldl DFW.writeBytes
    (({ DFW.new with wbuf := DFW.new.wbuf ++ [9] } : DFW).startWrite 5 0xff010203 8)).endWrite none
      (fun _ => (none : Option Unit))).submitted.map DFW.wbuf =
    some [0,0,0,15, 0,0,0,0,0,0,0,5, 8, 1,2,3, 9,1,2] := by decide

/-- **C03**. The connection delivers only the first `k` bytes of what was written for `us` (in any fragmentation) and
then ends: the reader returns exactly the frames that are complete in those `k` bytes (`j` of them), and the next read
gives the connection's error — never a frame. A peer close in the middle shows as EOF/unexpected EOF. -/
theorem C03_truncated (wcodec : Option Codec) (cfg : FrameReaderCfg) (d : DFW) (hd : d.Clean) (us : List UFrame)
    (hc : ∀ u ∈ us, u.wantsCodec = false)
    (hsize : ∀ u ∈ us, 12 + u.payload.length < 2 ^ 32)
    (hadm : ∀ u ∈ us, Admits cfg (12 + u.payload.length))
    (s : Src) (k : Nat) (hk : k < (writeUFrames wcodec d us).1.length)
    (hs : srcBytes s = (writeUFrames wcodec d us).1.take k) :
    ∃ j e, j < us.length ∧
      -- j frames are complete, j+1 are not
      (writeUFrames wcodec d (us.take j)).1.length ≤ k ∧ k < (writeUFrames wcodec d (us.take (j + 1))).1.length ∧
      (readN cfg j s).1 = .ok ((us.take j).map UFrame.expected) ∧
      (∀ n, (readN cfg (j + 1 + n) s).1 = .error (.read e)) ∧
      (∀ c, srcEnd s = .conn c → e = .conn c) ∧ (srcEnd s = .eof → e = .eof ∨ e = .unexpectedEOF) ∧
      (srcEnd s = .unexpectedEOF → e = .unexpectedEOF) := by
  have htake : ∀ j, (writeUFrames wcodec d (us.take j)).1 =
      ((us.take j).map fun u => layout u.id u.cmd u.flags u.payload).flatten := fun j => by
    rw [writeUFrames_layout wcodec _ (fun u hu => hc u (List.mem_of_mem_take hu)) d hd]
  simp only [htake]
  rw [writeUFrames_layout wcodec us hc d hd] at hs hk
  simp only at hs hk
  clear htake hd
  induction us generalizing s k with
  | nil => simp at hk
  | cons u us ih =>
    simp only [List.map_cons, List.flatten_cons] at hs hk
    have hlen := layout_length u.id u.cmd u.flags u.payload
    by_cases hlt : k < (layout u.id u.cmd u.flags u.payload).length
    · rw [List.take_append_of_le_length (by omega)] at hs
      obtain ⟨s', g, e1, _⟩ := readFrame_truncated cfg s u.id u.cmd u.flags u.payload k hlt
        (hsize u (by simp)) (hadm u (by simp)) hs
      refine ⟨0, endErr g (srcEnd s), by simp, by simp, by simpa using hlt, by simp [readN], ?_, ?_, ?_, ?_⟩
      · intro n
        rw [show 0 + 1 + n = n + 1 by omega]
        simp [readN, e1]
      · intro c h; rw [h, endErr_conn]
      · intro h; rw [h]; simp only [endErr, if_true]; by_cases hg : g = [] <;> simp [hg]
      · intro h; rw [h]; simp [endErr]
    · have hs2 : srcBytes s = layout u.id u.cmd u.flags u.payload ++
          ((us.map fun u => layout u.id u.cmd u.flags u.payload).flatten).take
            (k - (layout u.id u.cmd u.flags u.payload).length) := by
        rw [hs, List.take_append, List.take_of_length_le (by omega)]
      obtain ⟨s1, e1, e2, e3⟩ := readFrame_layout cfg s u.id u.cmd u.flags u.payload _
        (hsize u (by simp)) (hadm u (by simp)) hs2
      have hdec : decodePayload cfg u.flags u.payload = .ok u.payload := by
        have hcu : FrameFlag.isCodec u.flags = false := by rw [isCodec_testBit]; exact hc u (by simp)
        unfold decodePayload
        split
        · next hp => rw [hp]
        · simp [hcu]
      rw [hdec] at e3
      rw [List.length_append] at hk
      obtain ⟨j, e, r1, r2, r3, r4, r5, r6, r7, r8⟩ := ih (fun v hv => hc v (by simp [hv]))
        (fun v hv => hsize v (by simp [hv])) (fun v hv => hadm v (by simp [hv])) s1
        (k - (layout u.id u.cmd u.flags u.payload).length) (by omega) e1
      rw [e2] at r6 r7 r8
      refine ⟨j + 1, e, by simpa using r1, ?_, ?_, ?_, ?_, r6, r7, r8⟩
      · simp only [List.take_succ_cons, List.map_cons, List.flatten_cons, List.length_append]; omega
      · simp only [List.take_succ_cons, List.map_cons, List.flatten_cons, List.length_append]
        omega
      · simp only [readN, e3, Except.map]
        cases hr : readN cfg j s1 with
        | mk r s2 =>
          rw [hr] at r4; simp only at r4; subst r4
          simp [UFrame.expected]
      · intro n
        rw [show j + 1 + 1 + n = (j + 1 + n) + 1 by omega]
        simp only [readN, e3, Except.map]
        have := r5 n
        cases hr : readN cfg (j + 1 + n) s1 with
        | mk r s2 =>
          rw [hr] at this; simp only at this; subst this; rfl

/-- Non-trivial instance of C03's hypotheses: two frames, cut in the middle of the second, then a timeout error. -/
example : ∃ (us : List UFrame) (k : Nat) (s : Src), us.length = 2 ∧ (∀ u ∈ us, u.wantsCodec = false) ∧
    16 < k ∧ k < (writeUFrames none DFW.new us).1.length ∧ srcBytes s = (writeUFrames none DFW.new us).1.take k ∧
    srcEnd s = .conn 7 :=
  ⟨[⟨3, 1, 0, [[1]]⟩, ⟨5, 1, 0, [[2, 3]]⟩], 30,
    ⟨[], [.data ((writeUFrames none DFW.new [⟨3, 1, 0, [[1]]⟩, ⟨5, 1, 0, [[2, 3]]⟩]).1.take 30), .err 7]⟩,
    by decide⟩

end Qrpc
