#!/usr/bin/env python3
"""Translate the JSON schemas of the repository into lean/Verif/Spec/Schema/*.lean.

Annotations (title, description, examples, default, $id, $comment, $schema) are dropped.
`additionalItems` is dropped beside an `items` that is one schema, where it has no meaning.
Keywords beside `$ref` are dropped, as draft 07 demands. Any other keyword stops the script."""
import json, os, re, sys
src = "/repo/cyclonedx-bom/test-utils/schema"
root = os.path.dirname(os.path.dirname(os.path.abspath(__file__)))
out = os.path.join(root, "lean/Verif/Spec/Schema")
SKIP = {"title", "description", "examples", "default", "$id", "$comment", "$schema", "definitions"}
PATTERNS = {
    "^urn:uuid:[0-9a-f]{8}-[0-9a-f]{4}-[0-9a-f]{4}-[0-9a-f]{4}-[0-9a-f]{12}$": "patternSerial",
    "^([a-fA-F0-9]{32}|[a-fA-F0-9]{40}|[a-fA-F0-9]{64}|[a-fA-F0-9]{96}|[a-fA-F0-9]{128})$": "patternHash",
    "^[-+a-z0-9.]+/[-+a-z0-9.]+$": "patternMime",
    "^([a-z]{2})(-[A-Z]{2})?$": "patternLocale",
    "^urn:cdx:[0-9a-f]{8}-[0-9a-f]{4}-[0-9a-f]{4}-[0-9a-f]{4}-[0-9a-f]{12}/[1-9][0-9]*$": "patternLinkDocument",
    "^urn:cdx:[0-9a-f]{8}-[0-9a-f]{4}-[0-9a-f]{4}-[0-9a-f]{4}-[0-9a-f]{12}/[1-9][0-9]*#.+$": "patternLinkElement",
}
def s(x): return json.dumps(x, ensure_ascii=False)
def strs(l): return "[" + ", ".join(map(s, l)) + "]"
def ref(r, prefix):
    if r == "spdx.schema.json": return "spdx"
    m = re.fullmatch(r"jsf-0.82.schema.json#/definitions/(\w+)", r)
    if m: return "jsf/" + m.group(1)
    if r == "#": return prefix + "root"
    m = re.fullmatch(r"#/definitions/([\w-]+)", r)
    assert m, r
    return prefix + m.group(1)
def tr(x, prefix, ind):
    """The list of keywords of a schema object."""
    if "$ref" in x: return [".ref " + s(ref(x["$ref"], prefix))]
    sub = lambda y: one(y, prefix, ind + 2)
    r = []
    for k in x:
        assert k in SKIP | {"type", "enum", "const", "pattern", "format", "required", "additionalProperties",
            "properties", "items", "additionalItems", "uniqueItems", "minItems", "maxItems", "minLength",
            "maxLength", "minimum", "maximum", "allOf", "anyOf", "oneOf", "if", "then"}, k
    pad = "\n" + " " * (ind + 2)
    if "type" in x:
        assert x["type"] in ("object", "array", "string", "boolean", "integer", "number"), x["type"]
        r.append(".kw (.type .%s)" % x["type"])
    if "enum" in x:
        assert all(isinstance(e, str) for e in x["enum"])
        r.append(".kw (.enum %s)" % strs(x["enum"]))
    if "const" in x: r.append(".kw (.enum %s)" % strs([x["const"]]))
    if "pattern" in x: r.append(".kw (.pattern %s)" % PATTERNS[x["pattern"]])
    if "format" in x: r.append(".kw (.format %s)" % s(x["format"]))
    for k in ("minItems", "maxItems", "minLength", "maxLength", "minimum", "maximum"):
        if k in x:
            assert isinstance(x[k], int) and x[k] >= 0
            r.append(".kw (.%s %d)" % (k, x[k]))
    if x.get("uniqueItems"): r.append(".kw .uniqueItems")
    if "required" in x: r.append(".kw (.required %s)" % strs(x["required"]))
    if "additionalProperties" in x:
        assert isinstance(x["additionalProperties"], bool)
        if not x["additionalProperties"]:
            r.append(".kw (.closed %s)" % strs(list(x.get("properties", {}))))
    if "properties" in x:
        r.append(".properties [" + ("," + pad).join("(%s, %s)" % (s(k), sub(y)) for k, y in x["properties"].items()) + "]")
    if "items" in x:
        if isinstance(x["items"], dict): r.append(".items (" + sub(x["items"]) + ")")
        else:
            for i, y in enumerate(x["items"]): r.append(".itemAt %d (" % i + sub(y) + ")")
            if x.get("additionalItems") is False: r.append(".kw (.maxItems %d)" % len(x["items"]))
    for k in ("allOf", "anyOf", "oneOf"):
        if k in x: r.append(".%s [" % k + ("," + pad).join(sub(y) for y in x[k]) + "]")
    assert ("if" in x) == ("then" in x)
    if "if" in x: r.append(".ifThen (%s) (%s)" % (sub(x["if"]), sub(x["then"])))
    return r
def one(x, prefix, ind):
    r = tr(x, prefix, ind)
    if len(r) == 1: return r[0]
    return ".allOf [" + (",\n" + " " * (ind + 2)).join(r) + "]"
def name(k): return re.sub(r"-(\w)", lambda m: m.group(1).upper(), k)
def emit(fname, ns, files, title):
    o = ["import Verif.Spec.Schema.Patterns"]
    o += ["", "/-!", "# Specification: " + title, "", "Written by `scripts/schema.py` from " +
          " and ".join("`%s`" % f for f, _ in files) + " (in", "`cyclonedx-bom/test-utils/schema`).", "-/", "",
          "namespace Cdx.Spec." + ns, ""]
    table = []
    for f, prefix in files:
        d = json.load(open(os.path.join(src, f)))
        items = []
        if "type" in d: items.append(("root", d))
        items += list(d.get("definitions", {}).items())
        if f == "spdx.schema.json": items = [("spdx", d)]
        for k, x in items:
            if k == "spdx":
                o += ["/-- The values that `%s` allows. -/" % f, "def ids : List String :=", "  " + strs(x["enum"]), ""]
            lean = name((prefix.replace("/", "-") + k) if prefix else k)
            where = "the schema" if k in ("root", "spdx") else "`definitions/%s`" % k
            o += ["/-- %s of `%s`. -/" % (where[0].upper() + where[1:], f), "def %s : Schema :=" % lean, "  " + (one(x, prefix, 2).replace(strs(x["enum"]), "ids") if k == "spdx" else one(x, prefix, 2)), ""]
            table.append((k if k == "spdx" else prefix + k, lean))
    o += ["/-- The definitions by name. -/", "def defs : List (String × Schema) := ["]
    o += ["  " + ",\n  ".join("(%s, %s)" % (s(k), l) for k, l in table) + "]", "", "end Cdx.Spec." + ns, ""]
    open(os.path.join(out, fname), "w").write("\n".join(o))
jsf = ("jsf-0.82.schema.json", "jsf/")
emit("Spdx.lean", "SchemaSpdx", [("spdx.schema.json", "")], "the SPDX licence identifiers")
emit("Jsf.lean", "SchemaJsf", [jsf], "the schema of JSON signatures")
for v in ("1.3", "1.4", "1.5"):
    emit("V%s.lean" % v.replace(".", "_"), "Schema" + v.replace(".", ""), [("bom-%s.schema.json" % v, "")], "the schema of CycloneDX " + v)
