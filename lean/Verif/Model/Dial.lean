import Verif.Model.Bytes
/-!
# Dialling (clientconn.go:99-176, 259-305, clientconn_reuse.go:13-21)

Which configuration is handed to the transport by the four places that dial, and what `dialTCP` does with it.
TLS configurations are opaque numbers; the handshake is an environment choice.
-/
namespace Qrpc

/-- The fields of `ConnectionConfig` that concern dialling. -/
structure ConnConfig where
  dialTimeout : Int
  wbuf : Int
  rbuf : Int
  tls : Option Nat
deriving DecidableEq

/-- conf.go `DialConfig`. -/
structure DialConfig where
  dialTimeout : Int
  wbuf : Int
  rbuf : Int
  tls : Option Nat
deriving DecidableEq

/-- The four dialling sites: NewConnection (clientconn.go:103,105), NewConnectionWithReconnect (167,169), connect (276,278),
NewReusedConnection (clientconn_reuse.go:14). -/
inductive DialSite where
  | newConnection | newReconnect | connect | newReused
deriving DecidableEq

def dialConfig (c : ConnConfig) : DialSite → DialConfig
  | .newConnection => ⟨c.dialTimeout, c.wbuf, c.rbuf, c.tls⟩
  | .newReconnect | .connect => ⟨c.dialTimeout, c.wbuf, c.rbuf, none⟩
  -- only the address and the timeout are handed on
  | .newReused => ⟨c.dialTimeout, 0, 0, none⟩

/-- Whether the overlay network of the configuration is used: the first three sites test `conf.OverlayNetwork != nil`
(102, 166, 275), the last does not look at it. -/
def dialOverlay (overlay : Bool) : DialSite → Bool
  | .newReused => false
  | _ => overlay

/-- The byte pipe a dial produces. -/
inductive Pipe where
  | failed
  | plain
  | tls (conf : Nat)
deriving DecidableEq

/-- clientconn.go:117-150; `conn`: TCP connect succeeded, `shake`: the handshake succeeded. -/
def dialTCP (d : DialConfig) (conn shake : Bool) : Pipe :=
  if conn then
    match d.tls with
    | none => .plain
    | some t => if shake then .tls t else .failed
  else .failed

end Qrpc
