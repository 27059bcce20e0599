import Verif.Spec.Schema.Patterns

/-!
# Specification: the schema of JSON signatures

Written by `scripts/schema.py` from `jsf-0.82.schema.json` (in
`cyclonedx-bom/test-utils/schema`).
-/

namespace Cdx.Spec.SchemaJsf

/-- The schema of `jsf-0.82.schema.json`. -/
def jsfRoot : Schema :=
  .kw (.type .object)

/-- `definitions/signature` of `jsf-0.82.schema.json`. -/
def jsfSignature : Schema :=
  .allOf [.kw (.type .object),
    .oneOf [.allOf [.kw (.closed ["signers"]),
      .properties [("signers", .allOf [.kw (.type .array),
        .items (.ref "jsf/signer")])]],
    .allOf [.kw (.closed ["chain"]),
      .properties [("chain", .allOf [.kw (.type .array),
        .items (.ref "jsf/signer")])]],
    .ref "jsf/signer"]]

/-- `definitions/signer` of `jsf-0.82.schema.json`. -/
def jsfSigner : Schema :=
  .allOf [.kw (.type .object),
    .kw (.required ["algorithm", "value"]),
    .kw (.closed ["algorithm", "keyId", "publicKey", "certificatePath", "excludes", "value"]),
    .properties [("algorithm", .oneOf [.allOf [.kw (.type .string),
        .kw (.enum ["RS256", "RS384", "RS512", "PS256", "PS384", "PS512", "ES256", "ES384", "ES512", "Ed25519", "Ed448", "HS256", "HS384", "HS512"])],
      .allOf [.kw (.type .string),
        .kw (.format "uri")]]),
    ("keyId", .kw (.type .string)),
    ("publicKey", .ref "jsf/publicKey"),
    ("certificatePath", .allOf [.kw (.type .array),
      .items (.kw (.type .string))]),
    ("excludes", .allOf [.kw (.type .array),
      .items (.kw (.type .string))]),
    ("value", .kw (.type .string))]]

/-- `definitions/keyType` of `jsf-0.82.schema.json`. -/
def jsfKeyType : Schema :=
  .allOf [.kw (.type .string),
    .kw (.enum ["EC", "OKP", "RSA"])]

/-- `definitions/publicKey` of `jsf-0.82.schema.json`. -/
def jsfPublicKey : Schema :=
  .allOf [.kw (.type .object),
    .kw (.required ["kty"]),
    .properties [("kty", .ref "jsf/keyType")],
    .allOf [.ifThen (.properties [("kty", .kw (.enum ["EC"]))]) (.allOf [.kw (.required ["kty", "crv", "x", "y"]),
        .kw (.closed ["kty", "crv", "x", "y"]),
        .properties [("kty", .ref "jsf/keyType"),
        ("crv", .allOf [.kw (.type .string),
          .kw (.enum ["P-256", "P-384", "P-521"])]),
        ("x", .kw (.type .string)),
        ("y", .kw (.type .string))]]),
    .ifThen (.properties [("kty", .kw (.enum ["OKP"]))]) (.allOf [.kw (.required ["kty", "crv", "x"]),
        .kw (.closed ["kty", "crv", "x"]),
        .properties [("kty", .ref "jsf/keyType"),
        ("crv", .allOf [.kw (.type .string),
          .kw (.enum ["Ed25519", "Ed448"])]),
        ("x", .kw (.type .string))]]),
    .ifThen (.properties [("kty", .kw (.enum ["RSA"]))]) (.allOf [.kw (.required ["kty", "n", "e"]),
        .kw (.closed ["kty", "n", "e"]),
        .properties [("kty", .ref "jsf/keyType"),
        ("n", .kw (.type .string)),
        ("e", .kw (.type .string))]])]]

/-- The definitions by name. -/
def defs : List (String × Schema) := [
  ("jsf/root", jsfRoot),
  ("jsf/signature", jsfSignature),
  ("jsf/signer", jsfSigner),
  ("jsf/keyType", jsfKeyType),
  ("jsf/publicKey", jsfPublicKey)]

end Cdx.Spec.SchemaJsf
