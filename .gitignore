lean/lake-manifest.json
.lake/
*.olean
