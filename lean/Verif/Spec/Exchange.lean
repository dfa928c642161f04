import Verif.Spec.System

/-! Vocabulary for tokens that are made from tokens (C110). -/
namespace Verif.Spec

/-- The token request hands in `v` to get tokens for it. -/
def HandsIn (q : TokenReq) (v : Str) : Prop :=
  q.grant = some (.refreshToken v) ∨ ∃ g, q.grant = some (.tokenExchange g) ∧ g.subjectToken = v

/-- Call number `n` hands the token `t` to the store, for a request that handed in the token `u`
created by call number `m`. -/
def Derives (c : Conf) (m : Nat) (u : Token) (n : Nat) (t : Token) : Prop :=
  ∃ (iss : Str) (e : Entry) (q : TokenReq), Creates c m q.issuer u ∧ c.log[n]? = some e ∧ e.cmd = .tkCreate iss t ∧
    Asked c e.tid (.token (some q)) ∧ HandsIn q u.value

/-- The calls of request `i` are made within `d` seconds. -/
def Within (c : Conf) (i d : Nat) : Prop :=
  ∀ e ∈ c.log, ∀ e' ∈ c.log, e.tid = i → e'.tid = i → e'.time ≤ e.time + d * second

/-- For how long a token made from `u` is good. -/
def lifeFrom (u t : Token) : Nat :=
  if u.tokenType = .accessToken then 60 else if t.tokenType = .accessToken then 3600 else 7 * 24 * 3600

/-- `k` exchanges, one after the other, lead from `u` to `t`. -/
inductive Exchanges (c : Conf) : Nat → Nat → Token → Nat → Token → Prop
  | none (m : Nat) (iss : Str) (u : Token) (h : Creates c m iss u) (ha : u.tokenType = .accessToken) : Exchanges c 0 m u m u
  | one (k m : Nat) (u : Token) (n : Nat) (t : Token) (n' : Nat) (t' : Token) (h : Exchanges c k m u n t)
      (hd : Derives c n t n' t') : Exchanges c (k + 1) m u n' t'

end Verif.Spec
