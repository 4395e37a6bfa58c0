import Verif.Model.X509

/-! Model of src/Truststore.cpp and include/caligo/Truststore.h. A `std::map` is a list of key/value pairs with distinct keys; the order of
iteration is not observable in this code. -/

namespace Verif.Model

/-- `m.find(k)` -/
def mapFind {α : Type} (m : List (List Byte × α)) (k : List Byte) : Option α := (m.find? (fun p => decide (p.1 = k))).map (·.2)

/-- `m[k] = x` -/
def mapSet {α : Type} (m : List (List Byte × α)) (k : List Byte) (x : α) : List (List Byte × α) :=
  (k, x) :: m.filter (fun p => decide (p.1 ≠ k))

/-- `Truststore` : include/caligo/Truststore.h:17-18 -/
abbrev Store := List (List Byte × Cert)

/-- `addCertificate` : src/Truststore.cpp:30-32 -/
def Store.addCertificate (s : Store) (cert : Cert) : Store := mapSet s cert.subject cert

/-- `get` : src/Truststore.cpp:24-28; the pointer returned designates the certificate in the map -/
def Store.get (s : Store) (name : List Byte) : Option Cert := mapFind s name

/-- Constructor, given the content of /etc/ssl/certs/ca-certificates.crt: src/Truststore.cpp:13-22. Reading the file is not modelled. -/
def Store.ofFile (buffer : List Byte) : Out Store := do
  let certs ← parseCertificatesPem buffer
  return certs.foldl Store.addCertificate []

/-- A pointer in `localCertMap`: to a certificate in the store or to an element of `untrustedCertificates` -/
inductive CertPtr where
  | stored (name : List Byte)
  | listed (index : Nat)

/-- `*p` -/
def CertPtr.deref (store : Store) (certs : List Cert) : CertPtr → Out Cert
  | .stored name => match mapFind store name with
    | some c => .ok c
    | none => .error .ub
  | .listed i => rd certs i

/-- The loop of `trust` : src/Truststore.cpp:54-75. The result is the returned value and the list of certificates, which the function modifies.
The first argument bounds the number of passes. -/
def trustLoop (store : Store) : Nat → List (List Byte × CertPtr) → List Cert → Nat → Out (Bool × List Cert)
  | 0, _, _, _ => .error .diverges
  | k + 1, lmap, certs, n =>
    if n < certs.length then do
      let cert ← rd certs n
      match mapFind lmap cert.subject, mapFind lmap cert.issuer with
      | some _, _ => trustLoop store k lmap certs (n + 1)
      | none, none => trustLoop store k lmap certs (n + 1)
      | none, some p => do
        let issuer ← p.deref store certs
        let good ← cert.verify issuer
        if good then
          if n = 0 then return (true, certs)
          else trustLoop store k (mapSet lmap cert.subject (.listed n)) certs 0
        else do
          let certs ← wr certs n {}
          trustLoop store k lmap certs 0
    else return (false, certs)

/-- `localCertMap` as filled in src/Truststore.cpp:45-48 -/
def storeMap (store : Store) : List (List Byte × CertPtr) := store.map (fun p => (p.1, CertPtr.stored p.1))

/-- `trust` : src/Truststore.cpp:44-76. The bound on the number of passes is shown to be irrelevant in `C76`. -/
def Store.trust (store : Store) (certs : List Cert) (currentTime : U64) : Out (Bool × List Cert) := do
  let leaf ← rd certs 0
  if leaf.validity_start > currentTime then return (false, certs)
  else if leaf.validity_end < currentTime then return (false, certs)
  else trustLoop store ((certs.length + 1) * (certs.length + 1)) (storeMap store) certs 0

end Verif.Model
