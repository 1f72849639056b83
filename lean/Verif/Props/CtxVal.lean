import Verif.Model.CtxVal
/-! # C69: a handler can reach the connection its request came in on -/
namespace Qrpc

/-- **C69, server.** For a request that came in on connection `sc` - whatever its id - every method gives, or closes, `sc`. -/
theorem C69_server_partial (sc : Nat) (rid : UInt64) :
    let ctx := streamCtx (newConnCtx sc serveCtx)
    frameConnectionInfo ctx = .server sc ∧ frameClose rid ctx = .server sc ∧ frameStreamInitiator ctx = .server sc := by
  simp [streamCtx, newConnCtx, serveCtx, frameConnectionInfo, frameClose, frameStreamInitiator, GoCtx.value]

theorem clientCtx_ctx (cc : Nat) (dialed : Bool) (n : Nat) :
    (clientCtx cc true dialed n).ctx = .withValue .client cc (.withCancel .background) := by
  induction n with
  | zero => simp [clientCtx, newConnectionCtx]
  | succ n ih => simpa [clientCtx, connectCtx] using ih

/-- **C69, client, connections made by `connect`.** On every transport connection that the client dialed in `connect` (after a
reconnect, or because the first dial failed), all methods work for a request of the server. -/
theorem C69_client_partial (cc : Nat) (dialed : Bool) (n : Nat) (rid : UInt64) (hr : rid % 2 = 0) :
    ∃ l, (clientCtx cc true dialed (n + 1)).loopCtx = some l ∧
      frameClientConnectionInfo (streamCtx l) = .client cc ∧ frameClose rid (streamCtx l) = .client cc ∧
      frameStreamInitiator (streamCtx l) = .client cc := by
  refine ⟨_, rfl, ?_⟩
  rw [clientCtx_ctx]
  simp [streamCtx, frameClientConnectionInfo, frameClose, frameStreamInitiator, GoCtx.value, hr]

/-- **C69 is false of the code.** On the transport connection a client starts with, every one of the methods panics, for every
request, whatever the configuration: the loop context was derived from the context without the value. In particular a request
with an unknown command does not close the connection (`ServeMux.ServeQRPC` calls `Close`, which panics and is recovered). -/
theorem C69_refuted (cc : Nat) (handler : Bool) (rid : UInt64) :
    ∃ l, (clientCtx cc handler true 0).loopCtx = some l ∧
      frameClientConnectionInfo (streamCtx l) = .panic ∧ frameClose rid (streamCtx l) = .panic ∧
      frameStreamInitiator (streamCtx l) = .panic := by
  refine ⟨_, rfl, ?_⟩
  simp [streamCtx, frameClientConnectionInfo, frameClose, frameStreamInitiator, GoCtx.value]

/-- The same client before and after its first reconnect. -/
example :
    ((clientCtx 3 true true 0).loopCtx.map fun l => frameClose 4 (streamCtx l)) = some .panic ∧
    ((clientCtx 3 true true 1).loopCtx.map fun l => frameClose 4 (streamCtx l)) = some (.client 3) ∧
    frameClose 4 (streamCtx (newConnCtx 5 serveCtx)) = .server 5 := by decide

end Qrpc
