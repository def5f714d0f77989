#!/usr/bin/env python3
"""Checks that the texts in lean/Verif/Spec/Readme.lean are those of README.md, word for word, and that the file has the bytes
that the README shows.  Usage: readme_check.py [path of the repository]"""
import ast, base64, json, os, re, sys

repo = sys.argv[1] if len(sys.argv) > 1 else '/repo'
here = os.path.dirname(os.path.abspath(__file__))
readme = open(os.path.join(repo, 'README.md')).read()
lean = open(os.path.join(here, '../lean/Verif/Spec/Readme.lean')).read()


def text(name):
    body = re.search(r'^def %s : \w+ :=\n(.*?)\n\n' % name, lean, re.M | re.S).group(1)
    return ''.join(ast.literal_eval(m) for m in re.findall(r'p[yb]! ("(?:[^"\\]|\\.)*")', body))


private, public = re.findall(r'```json\n(.*?)```', readme, re.S)
assert text('readmeBefore') + text('readmeOptions') + text('readmeAfter') == private
assert text('readmePublicOutput') == public
shown = json.loads(private)
lines = text('readmeFile').splitlines()
assert base64.b64decode(''.join(lines[1:-1])) == ast.literal_eval(shown['byte_string'])
assert all(len(l) == 70 for l in lines[1:-2])
line = text('readmePublicFile').split()
assert base64.b64decode(line[1])[-32:] == ast.literal_eval(json.loads(public)[0]['params']['data']['public'])
print('ok')
