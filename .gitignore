lean/lake-manifest.json
lean/.lake/
__pycache__/
