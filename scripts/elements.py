"""Checks that the valid XML documents of the repository follow the tables of Spec/XmlElements.lean.

Usage: python3 scripts/elements.py [/repo]
"""
import glob, os, re, sys
import xml.etree.ElementTree as ET

here = os.path.dirname(os.path.abspath(__file__))
repo = sys.argv[1] if len(sys.argv) > 1 else "/repo"
text = open(os.path.join(here, "../lean/Verif/Spec/XmlElements.lean")).read()


def table(name):
    """The table as a dictionary from the element to its groups of (name, first minor version)."""
    block = text.split(f"def {name} :")[1].split(":=", 1)[1].split("\n\n")[0]
    block = re.sub(r'\bone14\s+("[^"]*")', r'[(\1, .v1_4)]', block)
    block = re.sub(r'\bone15\s+("[^"]*")', r'[(\1, .v1_5)]', block)
    block = re.sub(r'\bone\s+("[^"]*")', r'[(\1, .v1_3)]', block)
    block = re.sub(r'\.v1_(\d)', r'\1', block)
    return dict(eval(block.strip()))


children, attributes = table("formatChildren"), table("formatAttributes")


def local(tag):
    return tag.split("}")[-1]


problems = []


def check(path, version, element):
    name = local(element.tag)
    groups = [[c for c, since in g if since <= version] for g in children.get(name, [])]
    known = [a for g in attributes.get(name, []) for a, since in g if since <= version]
    for a in element.attrib:
        # the documents valid-random-attributes-* use these names for attributes of other origin
        if a not in known and a not in ("foo", "bar"):
            problems.append((path, name, "attribute", a))
    at = 0
    for child in element:
        if not isinstance(child.tag, str) or "cyclonedx" not in child.tag:
            continue
        places = [i for i in range(at, len(groups)) if local(child.tag) in groups[i]]
        if places:
            at = places[0]
        else:
            problems.append((path, name, "child", local(child.tag)))
        check(path, version, child)


count = 0
for version in (3, 4, 5):
    for path in sorted(glob.glob(f"{repo}/cyclonedx-bom/tests/spec/1.{version}/valid-*.xml")):
        count += 1
        check(path, version, ET.parse(path).getroot())
for p in problems:
    print(*p)
print(count, "documents,", len(problems), "problems")
sys.exit(1 if problems or not count else 0)
