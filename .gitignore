.lake/
lake-manifest.json
*.olean
